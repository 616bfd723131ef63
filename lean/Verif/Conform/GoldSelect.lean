import Verif.Conform.GoldTypes
import Verif.Conform.GoldBase

/-
The input and the expected output of the generator tests, /repo/internal/testdata/generator/select.

This file is written by /verif/tools/conform.py; do not edit it by hand.
-/
namespace Verif.Conform
open Verif.Analysis

/-- internal/testdata/generator/select/afterscan_single_in.go:7 -/
def select_afterscan_single_0 : List (FieldHdr × Ty) := [
    fld b!"User" (.ptr c_User2) [(b!"rel", [b!"test_user:u"])]]

/-- internal/testdata/generator/select/afterscan_single_out.go -/
def select_afterscan_single : Golden :=
  { dir := b!"select"
    file := b!"afterscan_single"
    targets := [(b!"SelectWithAfterScanSingleQuery", select_afterscan_single_0)]
    want := [
      b!"// DO NOT EDIT. This file was generated by \"github.com/frk/gosql\".",
      b!"",
      b!"package testdata",
      b!"",
      b!"import (",
      b!"\t\"github.com/frk/gosql\"",
      b!"\t\"github.com/frk/gosql/internal/testdata/common\"",
      b!")",
      b!"",
      b!"func (q *SelectWithAfterScanSingleQuery) Exec(c gosql.Conn) error {",
      b!"\tconst queryString = `SELECT",
      b!"\tu.\"id\"",
      b!"\t, u.\"email\"",
      b!"\t, u.\"full_name\"",
      b!"\t, u.\"created_at\"",
      b!"\tFROM \"test_user\" AS u",
      b!"\tLIMIT 1` // `",
      b!"",
      b!"\trow := c.QueryRow(queryString)",
      b!"",
      b!"\tq.User = new(common.User2)",
      b!"\terr := row.Scan(",
      b!"\t\t&q.User.Id,",
      b!"\t\t&q.User.Email,",
      b!"\t\t&q.User.FullName,",
      b!"\t\t&q.User.CreatedAt,",
      b!"\t)",
      b!"\tif err != nil {",
      b!"\t\treturn err",
      b!"\t}",
      b!"",
      b!"\tq.User.AfterScan()",
      b!"\treturn nil",
      b!"}",
      b!""] }

/-- internal/testdata/generator/select/afterscan_slice_in.go:7 -/
def select_afterscan_slice_0 : List (FieldHdr × Ty) := [
    fld b!"Users" (.slice (.ptr c_User2)) [(b!"rel", [b!"test_user:u"])]]

/-- internal/testdata/generator/select/afterscan_slice_out.go -/
def select_afterscan_slice : Golden :=
  { dir := b!"select"
    file := b!"afterscan_slice"
    targets := [(b!"SelectWithAfterScanSliceQuery", select_afterscan_slice_0)]
    want := [
      b!"// DO NOT EDIT. This file was generated by \"github.com/frk/gosql\".",
      b!"",
      b!"package testdata",
      b!"",
      b!"import (",
      b!"\t\"github.com/frk/gosql\"",
      b!"\t\"github.com/frk/gosql/internal/testdata/common\"",
      b!")",
      b!"",
      b!"func (q *SelectWithAfterScanSliceQuery) Exec(c gosql.Conn) error {",
      b!"\tconst queryString = `SELECT",
      b!"\tu.\"id\"",
      b!"\t, u.\"email\"",
      b!"\t, u.\"full_name\"",
      b!"\t, u.\"created_at\"",
      b!"\tFROM \"test_user\" AS u",
      b!"\t` // `",
      b!"",
      b!"\trows, err := c.Query(queryString)",
      b!"\tif err != nil {",
      b!"\t\treturn err",
      b!"\t}",
      b!"\tdefer rows.Close()",
      b!"",
      b!"\tfor rows.Next() {",
      b!"\t\tv := new(common.User2)",
      b!"\t\terr := rows.Scan(",
      b!"\t\t\t&v.Id,",
      b!"\t\t\t&v.Email,",
      b!"\t\t\t&v.FullName,",
      b!"\t\t\t&v.CreatedAt,",
      b!"\t\t)",
      b!"\t\tif err != nil {",
      b!"\t\t\treturn err",
      b!"\t\t}",
      b!"",
      b!"\t\tv.AfterScan()",
      b!"\t\tq.Users = append(q.Users, v)",
      b!"\t}",
      b!"\treturn rows.Err()",
      b!"}",
      b!""] }

/-- internal/testdata/generator/select/coalesce_table_in.go:7 -/
def select_coalesce_table_0 : List (FieldHdr × Ty) := [
    fld b!"Columns" (.struct (.ofList [
    fld b!"A" (.basic .string b!"string") [(b!"sql", [b!"col_a"])],
    fld b!"B" (.basic .string b!"string") [(b!"sql", [b!"col_b"])],
    fld b!"C" (.basic .int b!"int") [(b!"sql", [b!"col_c"])],
    fld b!"D" time_Time [(b!"sql", [b!"col_d"])],
    fld b!"E" (.basic .string b!"string") [(b!"sql", [b!"col_e"])],
    fld b!"A2" (.basic .string b!"string") [(b!"sql", [b!"col_a", b!"coalesce('foo')"])],
    fld b!"B2" (.basic .string b!"string") [(b!"sql", [b!"col_b", b!"coalesce"])],
    fld b!"E2" (.basic .string b!"string") [(b!"sql", [b!"col_e", b!"coalesce('red')"])]])) [(b!"rel", [b!"test_coalesce:c"])]]

/-- internal/testdata/generator/select/coalesce_table_out.go -/
def select_coalesce_table : Golden :=
  { dir := b!"select"
    file := b!"coalesce_table"
    targets := [(b!"SelectCoalesceTableQuery", select_coalesce_table_0)]
    want := [
      b!"// DO NOT EDIT. This file was generated by \"github.com/frk/gosql\".",
      b!"",
      b!"package testdata",
      b!"",
      b!"import (",
      b!"\t\"github.com/frk/gosql\"",
      b!")",
      b!"",
      b!"func (q *SelectCoalesceTableQuery) Exec(c gosql.Conn) error {",
      b!"\tconst queryString = `SELECT",
      b!"\tCOALESCE(c.\"col_a\", ''::text)",
      b!"\t, c.\"col_b\"",
      b!"\t, COALESCE(c.\"col_c\", 0::integer)",
      b!"\t, COALESCE(c.\"col_d\", '0001-01-01 00:00:00'::timestamp without time zone)",
      b!"\t, c.\"col_e\"",
      b!"\t, COALESCE(c.\"col_a\", 'foo'::text)",
      b!"\t, COALESCE(c.\"col_b\", ''::text)",
      b!"\t, COALESCE(c.\"col_e\", 'red'::color_enum)",
      b!"\tFROM \"test_coalesce\" AS c",
      b!"\tLIMIT 1` // `",
      b!"",
      b!"\trow := c.QueryRow(queryString)",
      b!"\treturn row.Scan(",
      b!"\t\t&q.Columns.A,",
      b!"\t\t&q.Columns.B,",
      b!"\t\t&q.Columns.C,",
      b!"\t\t&q.Columns.D,",
      b!"\t\t&q.Columns.E,",
      b!"\t\t&q.Columns.A2,",
      b!"\t\t&q.Columns.B2,",
      b!"\t\t&q.Columns.E2,",
      b!"\t)",
      b!"}",
      b!""] }

/-- internal/testdata/generator/select/count_basic_in.go:3 -/
def select_count_basic_0 : List (FieldHdr × Ty) := [
    fld b!"Count" (.basic .int b!"int") [(b!"rel", [b!"test_user:u"])]]

/-- internal/testdata/generator/select/count_basic_out.go -/
def select_count_basic : Golden :=
  { dir := b!"select"
    file := b!"count_basic"
    targets := [(b!"SelectCountQuery", select_count_basic_0)]
    want := [
      b!"// DO NOT EDIT. This file was generated by \"github.com/frk/gosql\".",
      b!"",
      b!"package testdata",
      b!"",
      b!"import (",
      b!"\t\"github.com/frk/gosql\"",
      b!")",
      b!"",
      b!"func (q *SelectCountQuery) Exec(c gosql.Conn) error {",
      b!"\tconst queryString = `SELECT COUNT(*) FROM \"test_user\" AS u",
      b!"\t` // `",
      b!"",
      b!"\trow := c.QueryRow(queryString)",
      b!"\treturn row.Scan(&q.Count)",
      b!"}",
      b!""] }

/-- internal/testdata/generator/select/count_filter_in.go:7 -/
def select_count_filter_0 : List (FieldHdr × Ty) := [
    fld b!"Count" (.basic .int b!"int") [(b!"rel", [b!"test_user:u"])],
    emb b!"Filter" g_Filter]

/-- internal/testdata/generator/select/count_filter_out.go -/
def select_count_filter : Golden :=
  { dir := b!"select"
    file := b!"count_filter"
    withContext := true
    targets := [(b!"SelectCountWithFilterQuery", select_count_filter_0)]
    want := [
      b!"// DO NOT EDIT. This file was generated by \"github.com/frk/gosql\".",
      b!"",
      b!"package testdata",
      b!"",
      b!"import (",
      b!"\t\"context\"",
      b!"",
      b!"\t\"github.com/frk/gosql\"",
      b!")",
      b!"",
      b!"func (q *SelectCountWithFilterQuery) Exec(ctx context.Context, c gosql.Conn) error {",
      b!"\tvar queryString = `SELECT COUNT(*) FROM \"test_user\" AS u",
      b!"\t` // `",
      b!"",
      b!"\tfilterString, params := q.Filter.ToSQL(0)",
      b!"\tqueryString += filterString",
      b!"",
      b!"\trow := c.QueryRowContext(ctx, queryString, params...)",
      b!"\treturn row.Scan(&q.Count)",
      b!"}",
      b!""] }

/-- internal/testdata/generator/select/count_where_in.go:3 -/
def select_count_where_0 : List (FieldHdr × Ty) := [
    fld b!"Count" (.basic .int b!"int") [(b!"rel", [b!"test_user:u"])],
    fld b!"Where" (.struct (.ofList [
    fld b!"FullName" (.basic .string b!"string") [(b!"sql", [b!"u.full_name islike"])]]))]

/-- internal/testdata/generator/select/count_where_out.go -/
def select_count_where : Golden :=
  { dir := b!"select"
    file := b!"count_where"
    targets := [(b!"SelectCountWithWhereBlockQuery", select_count_where_0)]
    want := [
      b!"// DO NOT EDIT. This file was generated by \"github.com/frk/gosql\".",
      b!"",
      b!"package testdata",
      b!"",
      b!"import (",
      b!"\t\"github.com/frk/gosql\"",
      b!")",
      b!"",
      b!"func (q *SelectCountWithWhereBlockQuery) Exec(c gosql.Conn) error {",
      b!"\tconst queryString = `SELECT COUNT(*) FROM \"test_user\" AS u",
      b!"\tWHERE u.\"full_name\" LIKE $1` // `",
      b!"",
      b!"\trow := c.QueryRow(queryString, q.Where.FullName)",
      b!"\treturn row.Scan(&q.Count)",
      b!"}",
      b!""] }

/-- internal/testdata/generator/select/exists_filter_in.go:7 -/
def select_exists_filter_0 : List (FieldHdr × Ty) := [
    fld b!"Exists" (.basic .bool b!"bool") [(b!"rel", [b!"test_user:u"])],
    emb b!"Filter" g_Filter]

/-- internal/testdata/generator/select/exists_filter_out.go -/
def select_exists_filter : Golden :=
  { dir := b!"select"
    file := b!"exists_filter"
    targets := [(b!"SelectExistsWithFilterQuery", select_exists_filter_0)]
    want := [
      b!"// DO NOT EDIT. This file was generated by \"github.com/frk/gosql\".",
      b!"",
      b!"package testdata",
      b!"",
      b!"import (",
      b!"\t\"github.com/frk/gosql\"",
      b!")",
      b!"",
      b!"func (q *SelectExistsWithFilterQuery) Exec(c gosql.Conn) error {",
      b!"\tvar queryString = `SELECT EXISTS(SELECT 1 FROM \"test_user\" AS u",
      b!"\t` // `",
      b!"",
      b!"\tfilterString, params := q.Filter.ToSQL(0)",
      b!"\tqueryString += filterString + `)`",
      b!"",
      b!"\trow := c.QueryRow(queryString, params...)",
      b!"\treturn row.Scan(&q.Exists)",
      b!"}",
      b!""] }

/-- internal/testdata/generator/select/exists_where_in.go:3 -/
def select_exists_where_0 : List (FieldHdr × Ty) := [
    fld b!"Exists" (.basic .bool b!"bool") [(b!"rel", [b!"test_user:u"])],
    fld b!"Where" (.struct (.ofList [
    fld b!"Email" (.basic .string b!"string") [(b!"sql", [b!"u.email", b!"@lower"])]]))]

/-- internal/testdata/generator/select/exists_where_out.go -/
def select_exists_where : Golden :=
  { dir := b!"select"
    file := b!"exists_where"
    targets := [(b!"SelectExistsWithWhereBlockQuery", select_exists_where_0)]
    want := [
      b!"// DO NOT EDIT. This file was generated by \"github.com/frk/gosql\".",
      b!"",
      b!"package testdata",
      b!"",
      b!"import (",
      b!"\t\"github.com/frk/gosql\"",
      b!")",
      b!"",
      b!"func (q *SelectExistsWithWhereBlockQuery) Exec(c gosql.Conn) error {",
      b!"\tconst queryString = `SELECT EXISTS(SELECT 1 FROM \"test_user\" AS u",
      b!"\tWHERE lower(u.\"email\") = lower($1)",
      b!"\tLIMIT 1)` // `",
      b!"",
      b!"\trow := c.QueryRow(queryString, q.Where.Email)",
      b!"\treturn row.Scan(&q.Exists)",
      b!"}",
      b!""] }

/-- internal/testdata/generator/select/iterator_func_in.go:9 -/
def select_iterator_func_0 : List (FieldHdr × Ty) := [
    low b!"next" (.func { params := 1, results := 1, errResult := true } (.ptr c_User)) [(b!"rel", [b!"test_user:u"])],
    low b!"where" (.struct (.ofList [
    low b!"createdafter" time_Time [(b!"sql", [b!"u.created_at >"])]])),
    low b!"limit" (.basic .int b!"int"),
    low b!"offset" (.basic .int b!"int")]

/-- internal/testdata/generator/select/iterator_func_out.go -/
def select_iterator_func : Golden :=
  { dir := b!"select"
    file := b!"iterator_func"
    targets := [(b!"SelectWithIteratorFuncQuery", select_iterator_func_0)]
    want := [
      b!"// DO NOT EDIT. This file was generated by \"github.com/frk/gosql\".",
      b!"",
      b!"package testdata",
      b!"",
      b!"import (",
      b!"\t\"github.com/frk/gosql\"",
      b!"\t\"github.com/frk/gosql/internal/testdata/common\"",
      b!")",
      b!"",
      b!"func (q *SelectWithIteratorFuncQuery) Exec(c gosql.Conn) error {",
      b!"\tconst queryString = `SELECT",
      b!"\tu.\"id\"",
      b!"\t, u.\"email\"",
      b!"\t, u.\"full_name\"",
      b!"\t, u.\"created_at\"",
      b!"\tFROM \"test_user\" AS u",
      b!"\tWHERE u.\"created_at\" > $1",
      b!"\tLIMIT $2",
      b!"\tOFFSET $3` // `",
      b!"",
      b!"\trows, err := c.Query(queryString,",
      b!"\t\tq.where.createdafter,",
      b!"\t\tq.limit,",
      b!"\t\tq.offset,",
      b!"\t)",
      b!"\tif err != nil {",
      b!"\t\treturn err",
      b!"\t}",
      b!"\tdefer rows.Close()",
      b!"",
      b!"\tfor rows.Next() {",
      b!"\t\tv := new(common.User)",
      b!"\t\terr := rows.Scan(",
      b!"\t\t\t&v.Id,",
      b!"\t\t\t&v.Email,",
      b!"\t\t\t&v.FullName,",
      b!"\t\t\t&v.CreatedAt,",
      b!"\t\t)",
      b!"\t\tif err != nil {",
      b!"\t\t\treturn err",
      b!"\t\t}",
      b!"",
      b!"\t\tif err := q.next(v); err != nil {",
      b!"\t\t\treturn err",
      b!"\t\t}",
      b!"\t}",
      b!"\treturn rows.Err()",
      b!"}",
      b!""] }

/-- internal/testdata/generator/select/iterator_func_errorhandler_in.go:9 -/
def select_iterator_func_errorhandler_0 : List (FieldHdr × Ty) := [
    low b!"next" (.func { params := 1, results := 1, errResult := true } (.ptr c_User)) [(b!"rel", [b!"test_user:u"])],
    low b!"where" (.struct (.ofList [
    low b!"createdafter" time_Time [(b!"sql", [b!"u.created_at >"])]])),
    low b!"limit" (.basic .int b!"int"),
    low b!"offset" (.basic .int b!"int"),
    low b!"erh" c_ErrorHandler]

/-- internal/testdata/generator/select/iterator_func_errorhandler_out.go -/
def select_iterator_func_errorhandler : Golden :=
  { dir := b!"select"
    file := b!"iterator_func_errorhandler"
    targets := [(b!"SelectWithIteratorFuncErrorHandlerQuery", select_iterator_func_errorhandler_0)]
    want := [
      b!"// DO NOT EDIT. This file was generated by \"github.com/frk/gosql\".",
      b!"",
      b!"package testdata",
      b!"",
      b!"import (",
      b!"\t\"github.com/frk/gosql\"",
      b!"\t\"github.com/frk/gosql/internal/testdata/common\"",
      b!")",
      b!"",
      b!"func (q *SelectWithIteratorFuncErrorHandlerQuery) Exec(c gosql.Conn) error {",
      b!"\tconst queryString = `SELECT",
      b!"\tu.\"id\"",
      b!"\t, u.\"email\"",
      b!"\t, u.\"full_name\"",
      b!"\t, u.\"created_at\"",
      b!"\tFROM \"test_user\" AS u",
      b!"\tWHERE u.\"created_at\" > $1",
      b!"\tLIMIT $2",
      b!"\tOFFSET $3` // `",
      b!"",
      b!"\trows, err := c.Query(queryString,",
      b!"\t\tq.where.createdafter,",
      b!"\t\tq.limit,",
      b!"\t\tq.offset,",
      b!"\t)",
      b!"\tif err != nil {",
      b!"\t\treturn q.erh.HandleError(err)",
      b!"\t}",
      b!"\tdefer rows.Close()",
      b!"",
      b!"\tfor rows.Next() {",
      b!"\t\tv := new(common.User)",
      b!"\t\terr := rows.Scan(",
      b!"\t\t\t&v.Id,",
      b!"\t\t\t&v.Email,",
      b!"\t\t\t&v.FullName,",
      b!"\t\t\t&v.CreatedAt,",
      b!"\t\t)",
      b!"\t\tif err != nil {",
      b!"\t\t\treturn q.erh.HandleError(err)",
      b!"\t\t}",
      b!"",
      b!"\t\tif err := q.next(v); err != nil {",
      b!"\t\t\treturn q.erh.HandleError(err)",
      b!"\t\t}",
      b!"\t}",
      b!"\treturn q.erh.HandleError(rows.Err())",
      b!"}",
      b!""] }

/-- internal/testdata/generator/select/iterator_iface_in.go:9 -/
def select_iterator_iface_0 : List (FieldHdr × Ty) := [
    low b!"iter" c_UserIterator [(b!"rel", [b!"test_user:u"])],
    low b!"where" (.struct (.ofList [
    low b!"createdafter" time_Time [(b!"sql", [b!"u.created_at >"])]])),
    low b!"limit" (.basic .int b!"int"),
    low b!"offset" (.basic .int b!"int")]

/-- internal/testdata/generator/select/iterator_iface_out.go -/
def select_iterator_iface : Golden :=
  { dir := b!"select"
    file := b!"iterator_iface"
    targets := [(b!"SelectWithIteratorIfaceQuery", select_iterator_iface_0)]
    want := [
      b!"// DO NOT EDIT. This file was generated by \"github.com/frk/gosql\".",
      b!"",
      b!"package testdata",
      b!"",
      b!"import (",
      b!"\t\"github.com/frk/gosql\"",
      b!"\t\"github.com/frk/gosql/internal/testdata/common\"",
      b!")",
      b!"",
      b!"func (q *SelectWithIteratorIfaceQuery) Exec(c gosql.Conn) error {",
      b!"\tconst queryString = `SELECT",
      b!"\tu.\"id\"",
      b!"\t, u.\"email\"",
      b!"\t, u.\"full_name\"",
      b!"\t, u.\"created_at\"",
      b!"\tFROM \"test_user\" AS u",
      b!"\tWHERE u.\"created_at\" > $1",
      b!"\tLIMIT $2",
      b!"\tOFFSET $3` // `",
      b!"",
      b!"\trows, err := c.Query(queryString,",
      b!"\t\tq.where.createdafter,",
      b!"\t\tq.limit,",
      b!"\t\tq.offset,",
      b!"\t)",
      b!"\tif err != nil {",
      b!"\t\treturn err",
      b!"\t}",
      b!"\tdefer rows.Close()",
      b!"",
      b!"\tfor rows.Next() {",
      b!"\t\tv := new(common.User)",
      b!"\t\terr := rows.Scan(",
      b!"\t\t\t&v.Id,",
      b!"\t\t\t&v.Email,",
      b!"\t\t\t&v.FullName,",
      b!"\t\t\t&v.CreatedAt,",
      b!"\t\t)",
      b!"\t\tif err != nil {",
      b!"\t\t\treturn err",
      b!"\t\t}",
      b!"",
      b!"\t\tif err := q.iter.NextUser(v); err != nil {",
      b!"\t\t\treturn err",
      b!"\t\t}",
      b!"\t}",
      b!"\treturn rows.Err()",
      b!"}",
      b!""] }

/-- internal/testdata/generator/select/filter_slice_in.go:8 -/
def select_filter_slice_0 : List (FieldHdr × Ty) := [
    fld b!"Users" (.slice (.ptr c_User2)) [(b!"rel", [b!"test_user:u"])],
    emb b!"Filter" g_Filter]

/-- internal/testdata/generator/select/filter_slice_out.go -/
def select_filter_slice : Golden :=
  { dir := b!"select"
    file := b!"filter_slice"
    targets := [(b!"SelectWithFilterSliceQuery", select_filter_slice_0)]
    want := [
      b!"// DO NOT EDIT. This file was generated by \"github.com/frk/gosql\".",
      b!"",
      b!"package testdata",
      b!"",
      b!"import (",
      b!"\t\"github.com/frk/gosql\"",
      b!"\t\"github.com/frk/gosql/internal/testdata/common\"",
      b!")",
      b!"",
      b!"func (q *SelectWithFilterSliceQuery) Exec(c gosql.Conn) error {",
      b!"\tvar queryString = `SELECT",
      b!"\tu.\"id\"",
      b!"\t, u.\"email\"",
      b!"\t, u.\"full_name\"",
      b!"\t, u.\"created_at\"",
      b!"\tFROM \"test_user\" AS u",
      b!"\t` // `",
      b!"",
      b!"\tfilterString, params := q.Filter.ToSQL(0)",
      b!"\tqueryString += filterString",
      b!"",
      b!"\trows, err := c.Query(queryString, params...)",
      b!"\tif err != nil {",
      b!"\t\treturn err",
      b!"\t}",
      b!"\tdefer rows.Close()",
      b!"",
      b!"\tfor rows.Next() {",
      b!"\t\tv := new(common.User2)",
      b!"\t\terr := rows.Scan(",
      b!"\t\t\t&v.Id,",
      b!"\t\t\t&v.Email,",
      b!"\t\t\t&v.FullName,",
      b!"\t\t\t&v.CreatedAt,",
      b!"\t\t)",
      b!"\t\tif err != nil {",
      b!"\t\t\treturn err",
      b!"\t\t}",
      b!"",
      b!"\t\tv.AfterScan()",
      b!"\t\tq.Users = append(q.Users, v)",
      b!"\t}",
      b!"\treturn rows.Err()",
      b!"}",
      b!""] }

/-- internal/testdata/generator/select/filter_iterator_in.go:8 -/
def select_filter_iterator_0 : List (FieldHdr × Ty) := [
    fld b!"Iter" c_User2Iterator [(b!"rel", [b!"test_user:u"])],
    emb b!"Filter" g_Filter]

/-- internal/testdata/generator/select/filter_iterator_out.go -/
def select_filter_iterator : Golden :=
  { dir := b!"select"
    file := b!"filter_iterator"
    targets := [(b!"SelectWithFilterIteratorQuery", select_filter_iterator_0)]
    want := [
      b!"// DO NOT EDIT. This file was generated by \"github.com/frk/gosql\".",
      b!"",
      b!"package testdata",
      b!"",
      b!"import (",
      b!"\t\"github.com/frk/gosql\"",
      b!"\t\"github.com/frk/gosql/internal/testdata/common\"",
      b!")",
      b!"",
      b!"func (q *SelectWithFilterIteratorQuery) Exec(c gosql.Conn) error {",
      b!"\tvar queryString = `SELECT",
      b!"\tu.\"id\"",
      b!"\t, u.\"email\"",
      b!"\t, u.\"full_name\"",
      b!"\t, u.\"created_at\"",
      b!"\tFROM \"test_user\" AS u",
      b!"\t` // `",
      b!"",
      b!"\tfilterString, params := q.Filter.ToSQL(0)",
      b!"\tqueryString += filterString",
      b!"",
      b!"\trows, err := c.Query(queryString, params...)",
      b!"\tif err != nil {",
      b!"\t\treturn err",
      b!"\t}",
      b!"\tdefer rows.Close()",
      b!"",
      b!"\tfor rows.Next() {",
      b!"\t\tv := new(common.User2)",
      b!"\t\terr := rows.Scan(",
      b!"\t\t\t&v.Id,",
      b!"\t\t\t&v.Email,",
      b!"\t\t\t&v.FullName,",
      b!"\t\t\t&v.CreatedAt,",
      b!"\t\t)",
      b!"\t\tif err != nil {",
      b!"\t\t\treturn err",
      b!"\t\t}",
      b!"",
      b!"\t\tv.AfterScan()",
      b!"\t\tif err := q.Iter.NextUser(v); err != nil {",
      b!"\t\t\treturn err",
      b!"\t\t}",
      b!"\t}",
      b!"\treturn rows.Err()",
      b!"}",
      b!""] }

/-- internal/testdata/generator/select/joinblock_slice_in.go:8 -/
def select_joinblock_slice_0 : List (FieldHdr × Ty) := [
    fld b!"Users" (.slice (.ptr c_User)) [(b!"rel", [b!"test_user:u"])],
    fld b!"Join" (.struct (.ofList [
    low b!"_" g_InnerJoin [(b!"sql", [b!"test_post:p", b!"p.user_id = u.id"])],
    low b!"_" g_LeftJoin [(b!"sql", [b!"test_join1:j1", b!"j1.post_id = p.id"])],
    low b!"_" g_RightJoin [(b!"sql", [b!"test_join2:j2", b!"j2.join1_id = j1.id"])],
    low b!"_" g_FullJoin [(b!"sql", [b!"test_join3:j3", b!"j3.join2_id = j2.id"])],
    low b!"_" g_CrossJoin [(b!"sql", [b!"test_join4:j4"])]])),
    fld b!"Where" (.struct (.ofList [
    low b!"_" g_Column [(b!"sql", [b!"p.is_spam"])]]))]

/-- internal/testdata/generator/select/joinblock_slice_out.go -/
def select_joinblock_slice : Golden :=
  { dir := b!"select"
    file := b!"joinblock_slice"
    targets := [(b!"SelectWithJoinBlockSliceQuery", select_joinblock_slice_0)]
    want := [
      b!"// DO NOT EDIT. This file was generated by \"github.com/frk/gosql\".",
      b!"",
      b!"package testdata",
      b!"",
      b!"import (",
      b!"\t\"github.com/frk/gosql\"",
      b!"\t\"github.com/frk/gosql/internal/testdata/common\"",
      b!")",
      b!"",
      b!"func (q *SelectWithJoinBlockSliceQuery) Exec(c gosql.Conn) error {",
      b!"\tconst queryString = `SELECT",
      b!"\tu.\"id\"",
      b!"\t, u.\"email\"",
      b!"\t, u.\"full_name\"",
      b!"\t, u.\"created_at\"",
      b!"\tFROM \"test_user\" AS u",
      b!"\tINNER JOIN \"test_post\" AS p ON p.\"user_id\" = u.\"id\"",
      b!"\tLEFT JOIN \"test_join1\" AS j1 ON j1.\"post_id\" = p.\"id\"",
      b!"\tRIGHT JOIN \"test_join2\" AS j2 ON j2.\"join1_id\" = j1.\"id\"",
      b!"\tFULL JOIN \"test_join3\" AS j3 ON j3.\"join2_id\" = j2.\"id\"",
      b!"\tCROSS JOIN \"test_join4\" AS j4",
      b!"\tWHERE p.\"is_spam\" IS TRUE` // `",
      b!"",
      b!"\trows, err := c.Query(queryString)",
      b!"\tif err != nil {",
      b!"\t\treturn err",
      b!"\t}",
      b!"\tdefer rows.Close()",
      b!"",
      b!"\tfor rows.Next() {",
      b!"\t\tv := new(common.User)",
      b!"\t\terr := rows.Scan(",
      b!"\t\t\t&v.Id,",
      b!"\t\t\t&v.Email,",
      b!"\t\t\t&v.FullName,",
      b!"\t\t\t&v.CreatedAt,",
      b!"\t\t)",
      b!"\t\tif err != nil {",
      b!"\t\t\treturn err",
      b!"\t\t}",
      b!"",
      b!"\t\tq.Users = append(q.Users, v)",
      b!"\t}",
      b!"\treturn rows.Err()",
      b!"}",
      b!""] }

/-- internal/testdata/generator/select/limit_directive_in.go:8 -/
def select_limit_directive_0 : List (FieldHdr × Ty) := [
    fld b!"Users" (.slice (.ptr c_User)) [(b!"rel", [b!"test_user:u"])],
    low b!"_" g_Limit [(b!"sql", [b!"25"])]]

/-- internal/testdata/generator/select/limit_directive_out.go -/
def select_limit_directive : Golden :=
  { dir := b!"select"
    file := b!"limit_directive"
    targets := [(b!"SelectWithLimitDirectiveQuery", select_limit_directive_0)]
    want := [
      b!"// DO NOT EDIT. This file was generated by \"github.com/frk/gosql\".",
      b!"",
      b!"package testdata",
      b!"",
      b!"import (",
      b!"\t\"github.com/frk/gosql\"",
      b!"\t\"github.com/frk/gosql/internal/testdata/common\"",
      b!")",
      b!"",
      b!"func (q *SelectWithLimitDirectiveQuery) Exec(c gosql.Conn) error {",
      b!"\tconst queryString = `SELECT",
      b!"\tu.\"id\"",
      b!"\t, u.\"email\"",
      b!"\t, u.\"full_name\"",
      b!"\t, u.\"created_at\"",
      b!"\tFROM \"test_user\" AS u",
      b!"\tLIMIT 25` // `",
      b!"",
      b!"\trows, err := c.Query(queryString)",
      b!"\tif err != nil {",
      b!"\t\treturn err",
      b!"\t}",
      b!"\tdefer rows.Close()",
      b!"",
      b!"\tfor rows.Next() {",
      b!"\t\tv := new(common.User)",
      b!"\t\terr := rows.Scan(",
      b!"\t\t\t&v.Id,",
      b!"\t\t\t&v.Email,",
      b!"\t\t\t&v.FullName,",
      b!"\t\t\t&v.CreatedAt,",
      b!"\t\t)",
      b!"\t\tif err != nil {",
      b!"\t\t\treturn err",
      b!"\t\t}",
      b!"",
      b!"\t\tq.Users = append(q.Users, v)",
      b!"\t}",
      b!"\treturn rows.Err()",
      b!"}",
      b!""] }

/-- internal/testdata/generator/select/limit_field_default_in.go:9 -/
def select_limit_field_default_0 : List (FieldHdr × Ty) := [
    fld b!"Users" (.slice (.ptr c_User)) [(b!"rel", [b!"test_user:u"])],
    fld b!"Where" (.struct (.ofList [
    fld b!"CreatedAfter" time_Time [(b!"sql", [b!"u.created_at >"])]])),
    fld b!"Limit" (.basic .int b!"int") [(b!"sql", [b!"50"])]]

/-- internal/testdata/generator/select/limit_field_default_out.go -/
def select_limit_field_default : Golden :=
  { dir := b!"select"
    file := b!"limit_field_default"
    targets := [(b!"SelectWithLimitFieldDefaultQuery", select_limit_field_default_0)]
    want := [
      b!"// DO NOT EDIT. This file was generated by \"github.com/frk/gosql\".",
      b!"",
      b!"package testdata",
      b!"",
      b!"import (",
      b!"\t\"github.com/frk/gosql\"",
      b!"\t\"github.com/frk/gosql/internal/testdata/common\"",
      b!")",
      b!"",
      b!"func (q *SelectWithLimitFieldDefaultQuery) Exec(c gosql.Conn) error {",
      b!"\tconst queryString = `SELECT",
      b!"\tu.\"id\"",
      b!"\t, u.\"email\"",
      b!"\t, u.\"full_name\"",
      b!"\t, u.\"created_at\"",
      b!"\tFROM \"test_user\" AS u",
      b!"\tWHERE u.\"created_at\" > $1",
      b!"\tLIMIT $2` // `",
      b!"",
      b!"\tif q.Limit == 0 {",
      b!"\t\tq.Limit = 50",
      b!"\t}",
      b!"",
      b!"\trows, err := c.Query(queryString, q.Where.CreatedAfter, q.Limit)",
      b!"\tif err != nil {",
      b!"\t\treturn err",
      b!"\t}",
      b!"\tdefer rows.Close()",
      b!"",
      b!"\tfor rows.Next() {",
      b!"\t\tv := new(common.User)",
      b!"\t\terr := rows.Scan(",
      b!"\t\t\t&v.Id,",
      b!"\t\t\t&v.Email,",
      b!"\t\t\t&v.FullName,",
      b!"\t\t\t&v.CreatedAt,",
      b!"\t\t)",
      b!"\t\tif err != nil {",
      b!"\t\t\treturn err",
      b!"\t\t}",
      b!"",
      b!"\t\tq.Users = append(q.Users, v)",
      b!"\t}",
      b!"\treturn rows.Err()",
      b!"}",
      b!""] }

/-- internal/testdata/generator/select/limit_field_in.go:7 -/
def select_limit_field_0 : List (FieldHdr × Ty) := [
    fld b!"Users" (.slice (.ptr c_User)) [(b!"rel", [b!"test_user:u"])],
    fld b!"Limit" (.basic .int b!"int")]

/-- internal/testdata/generator/select/limit_field_out.go -/
def select_limit_field : Golden :=
  { dir := b!"select"
    file := b!"limit_field"
    targets := [(b!"SelectWithLimitFieldQuery", select_limit_field_0)]
    want := [
      b!"// DO NOT EDIT. This file was generated by \"github.com/frk/gosql\".",
      b!"",
      b!"package testdata",
      b!"",
      b!"import (",
      b!"\t\"github.com/frk/gosql\"",
      b!"\t\"github.com/frk/gosql/internal/testdata/common\"",
      b!")",
      b!"",
      b!"func (q *SelectWithLimitFieldQuery) Exec(c gosql.Conn) error {",
      b!"\tconst queryString = `SELECT",
      b!"\tu.\"id\"",
      b!"\t, u.\"email\"",
      b!"\t, u.\"full_name\"",
      b!"\t, u.\"created_at\"",
      b!"\tFROM \"test_user\" AS u",
      b!"\tLIMIT $1` // `",
      b!"",
      b!"\trows, err := c.Query(queryString, q.Limit)",
      b!"\tif err != nil {",
      b!"\t\treturn err",
      b!"\t}",
      b!"\tdefer rows.Close()",
      b!"",
      b!"\tfor rows.Next() {",
      b!"\t\tv := new(common.User)",
      b!"\t\terr := rows.Scan(",
      b!"\t\t\t&v.Id,",
      b!"\t\t\t&v.Email,",
      b!"\t\t\t&v.FullName,",
      b!"\t\t\t&v.CreatedAt,",
      b!"\t\t)",
      b!"\t\tif err != nil {",
      b!"\t\t\treturn err",
      b!"\t\t}",
      b!"",
      b!"\t\tq.Users = append(q.Users, v)",
      b!"\t}",
      b!"\treturn rows.Err()",
      b!"}",
      b!""] }

/-- internal/testdata/generator/select/notexists_where_in.go:3 -/
def select_notexists_where_0 : List (FieldHdr × Ty) := [
    fld b!"NotExists" (.basic .bool b!"bool") [(b!"rel", [b!"test_user:u"])],
    fld b!"Where" (.struct (.ofList [
    fld b!"Email" (.basic .string b!"string") [(b!"sql", [b!"u.email", b!"@lower"])]]))]

/-- internal/testdata/generator/select/notexists_where_out.go -/
def select_notexists_where : Golden :=
  { dir := b!"select"
    file := b!"notexists_where"
    targets := [(b!"SelectNotExistsWithWhereBlockQuery", select_notexists_where_0)]
    want := [
      b!"// DO NOT EDIT. This file was generated by \"github.com/frk/gosql\".",
      b!"",
      b!"package testdata",
      b!"",
      b!"import (",
      b!"\t\"github.com/frk/gosql\"",
      b!")",
      b!"",
      b!"func (q *SelectNotExistsWithWhereBlockQuery) Exec(c gosql.Conn) error {",
      b!"\tconst queryString = `SELECT NOT EXISTS(SELECT 1 FROM \"test_user\" AS u",
      b!"\tWHERE lower(u.\"email\") = lower($1)",
      b!"\tLIMIT 1)` // `",
      b!"",
      b!"\trow := c.QueryRow(queryString, q.Where.Email)",
      b!"\treturn row.Scan(&q.NotExists)",
      b!"}",
      b!""] }

/-- internal/testdata/generator/select/notexists_filter_in.go:7 -/
def select_notexists_filter_0 : List (FieldHdr × Ty) := [
    fld b!"NotExists" (.basic .bool b!"bool") [(b!"rel", [b!"test_user:u"])],
    emb b!"Filter" g_Filter]

/-- internal/testdata/generator/select/notexists_filter_out.go -/
def select_notexists_filter : Golden :=
  { dir := b!"select"
    file := b!"notexists_filter"
    targets := [(b!"SelectNotExistsWithFilterQuery", select_notexists_filter_0)]
    want := [
      b!"// DO NOT EDIT. This file was generated by \"github.com/frk/gosql\".",
      b!"",
      b!"package testdata",
      b!"",
      b!"import (",
      b!"\t\"github.com/frk/gosql\"",
      b!")",
      b!"",
      b!"func (q *SelectNotExistsWithFilterQuery) Exec(c gosql.Conn) error {",
      b!"\tvar queryString = `SELECT NOT EXISTS(SELECT 1 FROM \"test_user\" AS u",
      b!"\t` // `",
      b!"",
      b!"\tfilterString, params := q.Filter.ToSQL(0)",
      b!"\tqueryString += filterString + `)`",
      b!"",
      b!"\trow := c.QueryRow(queryString, params...)",
      b!"\treturn row.Scan(&q.NotExists)",
      b!"}",
      b!""] }

/-- internal/testdata/generator/select/offset_directive_in.go:8 -/
def select_offset_directive_0 : List (FieldHdr × Ty) := [
    fld b!"Users" (.slice (.ptr c_User)) [(b!"rel", [b!"test_user:u"])],
    low b!"_" g_Offset [(b!"sql", [b!"25"])]]

/-- internal/testdata/generator/select/offset_directive_out.go -/
def select_offset_directive : Golden :=
  { dir := b!"select"
    file := b!"offset_directive"
    targets := [(b!"SelectWithOffsetDirectiveQuery", select_offset_directive_0)]
    want := [
      b!"// DO NOT EDIT. This file was generated by \"github.com/frk/gosql\".",
      b!"",
      b!"package testdata",
      b!"",
      b!"import (",
      b!"\t\"github.com/frk/gosql\"",
      b!"\t\"github.com/frk/gosql/internal/testdata/common\"",
      b!")",
      b!"",
      b!"func (q *SelectWithOffsetDirectiveQuery) Exec(c gosql.Conn) error {",
      b!"\tconst queryString = `SELECT",
      b!"\tu.\"id\"",
      b!"\t, u.\"email\"",
      b!"\t, u.\"full_name\"",
      b!"\t, u.\"created_at\"",
      b!"\tFROM \"test_user\" AS u",
      b!"\tOFFSET 25` // `",
      b!"",
      b!"\trows, err := c.Query(queryString)",
      b!"\tif err != nil {",
      b!"\t\treturn err",
      b!"\t}",
      b!"\tdefer rows.Close()",
      b!"",
      b!"\tfor rows.Next() {",
      b!"\t\tv := new(common.User)",
      b!"\t\terr := rows.Scan(",
      b!"\t\t\t&v.Id,",
      b!"\t\t\t&v.Email,",
      b!"\t\t\t&v.FullName,",
      b!"\t\t\t&v.CreatedAt,",
      b!"\t\t)",
      b!"\t\tif err != nil {",
      b!"\t\t\treturn err",
      b!"\t\t}",
      b!"",
      b!"\t\tq.Users = append(q.Users, v)",
      b!"\t}",
      b!"\treturn rows.Err()",
      b!"}",
      b!""] }

/-- internal/testdata/generator/select/offset_field_default_in.go:9 -/
def select_offset_field_default_0 : List (FieldHdr × Ty) := [
    fld b!"Users" (.slice (.ptr c_User)) [(b!"rel", [b!"test_user:u"])],
    fld b!"Where" (.struct (.ofList [
    fld b!"CreatedAfter" time_Time [(b!"sql", [b!"u.created_at >"])]])),
    fld b!"Offset" (.basic .int b!"int") [(b!"sql", [b!"50"])]]

/-- internal/testdata/generator/select/offset_field_default_out.go -/
def select_offset_field_default : Golden :=
  { dir := b!"select"
    file := b!"offset_field_default"
    targets := [(b!"SelectWithOffsetFieldDefaultQuery", select_offset_field_default_0)]
    want := [
      b!"// DO NOT EDIT. This file was generated by \"github.com/frk/gosql\".",
      b!"",
      b!"package testdata",
      b!"",
      b!"import (",
      b!"\t\"github.com/frk/gosql\"",
      b!"\t\"github.com/frk/gosql/internal/testdata/common\"",
      b!")",
      b!"",
      b!"func (q *SelectWithOffsetFieldDefaultQuery) Exec(c gosql.Conn) error {",
      b!"\tconst queryString = `SELECT",
      b!"\tu.\"id\"",
      b!"\t, u.\"email\"",
      b!"\t, u.\"full_name\"",
      b!"\t, u.\"created_at\"",
      b!"\tFROM \"test_user\" AS u",
      b!"\tWHERE u.\"created_at\" > $1",
      b!"\tOFFSET $2` // `",
      b!"",
      b!"\tif q.Offset == 0 {",
      b!"\t\tq.Offset = 50",
      b!"\t}",
      b!"",
      b!"\trows, err := c.Query(queryString, q.Where.CreatedAfter, q.Offset)",
      b!"\tif err != nil {",
      b!"\t\treturn err",
      b!"\t}",
      b!"\tdefer rows.Close()",
      b!"",
      b!"\tfor rows.Next() {",
      b!"\t\tv := new(common.User)",
      b!"\t\terr := rows.Scan(",
      b!"\t\t\t&v.Id,",
      b!"\t\t\t&v.Email,",
      b!"\t\t\t&v.FullName,",
      b!"\t\t\t&v.CreatedAt,",
      b!"\t\t)",
      b!"\t\tif err != nil {",
      b!"\t\t\treturn err",
      b!"\t\t}",
      b!"",
      b!"\t\tq.Users = append(q.Users, v)",
      b!"\t}",
      b!"\treturn rows.Err()",
      b!"}",
      b!""] }

/-- internal/testdata/generator/select/offset_field_in.go:7 -/
def select_offset_field_0 : List (FieldHdr × Ty) := [
    fld b!"Users" (.slice (.ptr c_User)) [(b!"rel", [b!"test_user:u"])],
    fld b!"Offset" (.basic .int b!"int")]

/-- internal/testdata/generator/select/offset_field_out.go -/
def select_offset_field : Golden :=
  { dir := b!"select"
    file := b!"offset_field"
    targets := [(b!"SelectWithOffsetFieldQuery", select_offset_field_0)]
    want := [
      b!"// DO NOT EDIT. This file was generated by \"github.com/frk/gosql\".",
      b!"",
      b!"package testdata",
      b!"",
      b!"import (",
      b!"\t\"github.com/frk/gosql\"",
      b!"\t\"github.com/frk/gosql/internal/testdata/common\"",
      b!")",
      b!"",
      b!"func (q *SelectWithOffsetFieldQuery) Exec(c gosql.Conn) error {",
      b!"\tconst queryString = `SELECT",
      b!"\tu.\"id\"",
      b!"\t, u.\"email\"",
      b!"\t, u.\"full_name\"",
      b!"\t, u.\"created_at\"",
      b!"\tFROM \"test_user\" AS u",
      b!"\tOFFSET $1` // `",
      b!"",
      b!"\trows, err := c.Query(queryString, q.Offset)",
      b!"\tif err != nil {",
      b!"\t\treturn err",
      b!"\t}",
      b!"\tdefer rows.Close()",
      b!"",
      b!"\tfor rows.Next() {",
      b!"\t\tv := new(common.User)",
      b!"\t\terr := rows.Scan(",
      b!"\t\t\t&v.Id,",
      b!"\t\t\t&v.Email,",
      b!"\t\t\t&v.FullName,",
      b!"\t\t\t&v.CreatedAt,",
      b!"\t\t)",
      b!"\t\tif err != nil {",
      b!"\t\t\treturn err",
      b!"\t\t}",
      b!"",
      b!"\t\tq.Users = append(q.Users, v)",
      b!"\t}",
      b!"\treturn rows.Err()",
      b!"}",
      b!""] }

/-- internal/testdata/generator/select/orderby_directive_in.go:8 -/
def select_orderby_directive_0 : List (FieldHdr × Ty) := [
    fld b!"Users" (.slice (.ptr c_User)) [(b!"rel", [b!"test_user:u"])],
    low b!"_" g_OrderBy [(b!"sql", [b!"-u.created_at"])]]

/-- internal/testdata/generator/select/orderby_directive_out.go -/
def select_orderby_directive : Golden :=
  { dir := b!"select"
    file := b!"orderby_directive"
    targets := [(b!"SelectWithOrderByDirectiveQuery", select_orderby_directive_0)]
    want := [
      b!"// DO NOT EDIT. This file was generated by \"github.com/frk/gosql\".",
      b!"",
      b!"package testdata",
      b!"",
      b!"import (",
      b!"\t\"github.com/frk/gosql\"",
      b!"\t\"github.com/frk/gosql/internal/testdata/common\"",
      b!")",
      b!"",
      b!"func (q *SelectWithOrderByDirectiveQuery) Exec(c gosql.Conn) error {",
      b!"\tconst queryString = `SELECT",
      b!"\tu.\"id\"",
      b!"\t, u.\"email\"",
      b!"\t, u.\"full_name\"",
      b!"\t, u.\"created_at\"",
      b!"\tFROM \"test_user\" AS u",
      b!"\tORDER BY u.\"created_at\" DESC NULLS LAST` // `",
      b!"",
      b!"\trows, err := c.Query(queryString)",
      b!"\tif err != nil {",
      b!"\t\treturn err",
      b!"\t}",
      b!"\tdefer rows.Close()",
      b!"",
      b!"\tfor rows.Next() {",
      b!"\t\tv := new(common.User)",
      b!"\t\terr := rows.Scan(",
      b!"\t\t\t&v.Id,",
      b!"\t\t\t&v.Email,",
      b!"\t\t\t&v.FullName,",
      b!"\t\t\t&v.CreatedAt,",
      b!"\t\t)",
      b!"\t\tif err != nil {",
      b!"\t\t\treturn err",
      b!"\t\t}",
      b!"",
      b!"\t\tq.Users = append(q.Users, v)",
      b!"\t}",
      b!"\treturn rows.Err()",
      b!"}",
      b!""] }

/-- internal/testdata/generator/select/record_nested_single_in.go:7 -/
def select_record_nested_single_0 : List (FieldHdr × Ty) := [
    fld b!"Nested" (.ptr c_Nested) [(b!"rel", [b!"test_nested:n"])]]

/-- internal/testdata/generator/select/record_nested_single_out.go -/
def select_record_nested_single : Golden :=
  { dir := b!"select"
    file := b!"record_nested_single"
    targets := [(b!"SelectWithRecordNestedSingleQuery", select_record_nested_single_0)]
    want := [
      b!"// DO NOT EDIT. This file was generated by \"github.com/frk/gosql\".",
      b!"",
      b!"package testdata",
      b!"",
      b!"import (",
      b!"\t\"github.com/frk/gosql\"",
      b!"\t\"github.com/frk/gosql/internal/testdata/common\"",
      b!")",
      b!"",
      b!"func (q *SelectWithRecordNestedSingleQuery) Exec(c gosql.Conn) error {",
      b!"\tconst queryString = `SELECT",
      b!"\tn.\"foo_bar_baz_val\"",
      b!"\t, n.\"foo_baz_val\"",
      b!"\t, n.\"foo2_bar_baz_val\"",
      b!"\t, n.\"foo2_baz_val\"",
      b!"\tFROM \"test_nested\" AS n",
      b!"\tLIMIT 1` // `",
      b!"",
      b!"\trow := c.QueryRow(queryString)",
      b!"",
      b!"\tq.Nested = new(common.Nested)",
      b!"\tq.Nested.FOO = new(common.Foo)",
      b!"\tq.Nested.FOO.Baz = new(common.Baz)",
      b!"\tq.Nested.Foo.Baz = new(common.Baz)",
      b!"\treturn row.Scan(",
      b!"\t\t&q.Nested.FOO.Bar.Baz.Val,",
      b!"\t\t&q.Nested.FOO.Baz.Val,",
      b!"\t\t&q.Nested.Foo.Bar.Baz.Val,",
      b!"\t\t&q.Nested.Foo.Baz.Val,",
      b!"\t)",
      b!"}",
      b!""] }

/-- internal/testdata/generator/select/record_nested_slice_in.go:7 -/
def select_record_nested_slice_0 : List (FieldHdr × Ty) := [
    fld b!"Nesteds" (.slice (.ptr c_Nested)) [(b!"rel", [b!"test_nested:n"])]]

/-- internal/testdata/generator/select/record_nested_slice_out.go -/
def select_record_nested_slice : Golden :=
  { dir := b!"select"
    file := b!"record_nested_slice"
    targets := [(b!"SelectWithRecordNestedSliceQuery", select_record_nested_slice_0)]
    want := [
      b!"// DO NOT EDIT. This file was generated by \"github.com/frk/gosql\".",
      b!"",
      b!"package testdata",
      b!"",
      b!"import (",
      b!"\t\"github.com/frk/gosql\"",
      b!"\t\"github.com/frk/gosql/internal/testdata/common\"",
      b!")",
      b!"",
      b!"func (q *SelectWithRecordNestedSliceQuery) Exec(c gosql.Conn) error {",
      b!"\tconst queryString = `SELECT",
      b!"\tn.\"foo_bar_baz_val\"",
      b!"\t, n.\"foo_baz_val\"",
      b!"\t, n.\"foo2_bar_baz_val\"",
      b!"\t, n.\"foo2_baz_val\"",
      b!"\tFROM \"test_nested\" AS n",
      b!"\t` // `",
      b!"",
      b!"\trows, err := c.Query(queryString)",
      b!"\tif err != nil {",
      b!"\t\treturn err",
      b!"\t}",
      b!"\tdefer rows.Close()",
      b!"",
      b!"\tfor rows.Next() {",
      b!"\t\tv := new(common.Nested)",
      b!"\t\tv.FOO = new(common.Foo)",
      b!"\t\tv.FOO.Baz = new(common.Baz)",
      b!"\t\tv.Foo.Baz = new(common.Baz)",
      b!"\t\terr := rows.Scan(",
      b!"\t\t\t&v.FOO.Bar.Baz.Val,",
      b!"\t\t\t&v.FOO.Baz.Val,",
      b!"\t\t\t&v.Foo.Bar.Baz.Val,",
      b!"\t\t\t&v.Foo.Baz.Val,",
      b!"\t\t)",
      b!"\t\tif err != nil {",
      b!"\t\t\treturn err",
      b!"\t\t}",
      b!"",
      b!"\t\tq.Nesteds = append(q.Nesteds, v)",
      b!"\t}",
      b!"\treturn rows.Err()",
      b!"}",
      b!""] }

/-- internal/testdata/generator/select/whereblock_array_comparison1_in.go:7 -/
def select_whereblock_array_comparison1_0 : List (FieldHdr × Ty) := [
    fld b!"Users" (.slice (.ptr c_User)) [(b!"rel", [b!"test_user:u"])],
    fld b!"Where" (.struct (.ofList [
    fld b!"IDs" (.slice (.basic .int b!"int")) [(b!"sql", [b!"u.id = any"])]]))]

/-- internal/testdata/generator/select/whereblock_array_comparison1_out.go -/
def select_whereblock_array_comparison1 : Golden :=
  { dir := b!"select"
    file := b!"whereblock_array_comparison1"
    targets := [(b!"SelectWithWhereBlockArrayComparisonPredicate1Query", select_whereblock_array_comparison1_0)]
    want := [
      b!"// DO NOT EDIT. This file was generated by \"github.com/frk/gosql\".",
      b!"",
      b!"package testdata",
      b!"",
      b!"import (",
      b!"\t\"github.com/frk/gosql\"",
      b!"\t\"github.com/frk/gosql/internal/testdata/common\"",
      b!"\t\"github.com/frk/gosql/pgsql\"",
      b!")",
      b!"",
      b!"func (q *SelectWithWhereBlockArrayComparisonPredicate1Query) Exec(c gosql.Conn) error {",
      b!"\tconst queryString = `SELECT",
      b!"\tu.\"id\"",
      b!"\t, u.\"email\"",
      b!"\t, u.\"full_name\"",
      b!"\t, u.\"created_at\"",
      b!"\tFROM \"test_user\" AS u",
      b!"\tWHERE u.\"id\" = ANY($1::integer[])` // `",
      b!"",
      b!"\trows, err := c.Query(queryString, pgsql.Int4ArrayFromIntSlice(q.Where.IDs))",
      b!"\tif err != nil {",
      b!"\t\treturn err",
      b!"\t}",
      b!"\tdefer rows.Close()",
      b!"",
      b!"\tfor rows.Next() {",
      b!"\t\tv := new(common.User)",
      b!"\t\terr := rows.Scan(",
      b!"\t\t\t&v.Id,",
      b!"\t\t\t&v.Email,",
      b!"\t\t\t&v.FullName,",
      b!"\t\t\t&v.CreatedAt,",
      b!"\t\t)",
      b!"\t\tif err != nil {",
      b!"\t\t\treturn err",
      b!"\t\t}",
      b!"",
      b!"\t\tq.Users = append(q.Users, v)",
      b!"\t}",
      b!"\treturn rows.Err()",
      b!"}",
      b!""] }

/-- internal/testdata/generator/select/whereblock_array_comparison2_in.go:9 -/
def select_whereblock_array_comparison2_0 : List (FieldHdr × Ty) := [
    fld b!"Users" (.slice (.ptr c_User)) [(b!"rel", [b!"test_user:u"])],
    fld b!"Where" (.struct (.ofList [
    fld b!"CreatedAt" (.struct (.ofList [
    fld b!"After" time_Time [(b!"sql", [b!"x"])],
    fld b!"Before" time_Time [(b!"sql", [b!"y"])]])) [(b!"sql", [b!"u.created_at isbetween"])],
    fld b!"Or" (.struct (.ofList [
    fld b!"IDs" (.slice (.basic .int b!"int")) [(b!"sql", [b!"u.id = any"])],
    fld b!"CreatedBefore" time_Time [(b!"sql", [b!"u.created_at <"])]])) [(b!"bool", [b!"or"]), (b!"sql", [b!">"])]]))]

/-- internal/testdata/generator/select/whereblock_array_comparison2_out.go -/
def select_whereblock_array_comparison2 : Golden :=
  { dir := b!"select"
    file := b!"whereblock_array_comparison2"
    targets := [(b!"SelectWithWhereBlockArrayComparisonPredicate2Query", select_whereblock_array_comparison2_0)]
    want := [
      b!"// DO NOT EDIT. This file was generated by \"github.com/frk/gosql\".",
      b!"",
      b!"package testdata",
      b!"",
      b!"import (",
      b!"\t\"github.com/frk/gosql\"",
      b!"\t\"github.com/frk/gosql/internal/testdata/common\"",
      b!"\t\"github.com/frk/gosql/pgsql\"",
      b!")",
      b!"",
      b!"func (q *SelectWithWhereBlockArrayComparisonPredicate2Query) Exec(c gosql.Conn) error {",
      b!"\tconst queryString = `SELECT",
      b!"\tu.\"id\"",
      b!"\t, u.\"email\"",
      b!"\t, u.\"full_name\"",
      b!"\t, u.\"created_at\"",
      b!"\tFROM \"test_user\" AS u",
      b!"\tWHERE u.\"created_at\" BETWEEN $1 AND $2",
      b!"\tOR (u.\"id\" = ANY($3::integer[]) AND u.\"created_at\" < $4)` // `",
      b!"",
      b!"\trows, err := c.Query(queryString,",
      b!"\t\tq.Where.CreatedAt.After,",
      b!"\t\tq.Where.CreatedAt.Before,",
      b!"\t\tpgsql.Int4ArrayFromIntSlice(q.Where.Or.IDs),",
      b!"\t\tq.Where.Or.CreatedBefore,",
      b!"\t)",
      b!"\tif err != nil {",
      b!"\t\treturn err",
      b!"\t}",
      b!"\tdefer rows.Close()",
      b!"",
      b!"\tfor rows.Next() {",
      b!"\t\tv := new(common.User)",
      b!"\t\terr := rows.Scan(",
      b!"\t\t\t&v.Id,",
      b!"\t\t\t&v.Email,",
      b!"\t\t\t&v.FullName,",
      b!"\t\t\t&v.CreatedAt,",
      b!"\t\t)",
      b!"\t\tif err != nil {",
      b!"\t\t\treturn err",
      b!"\t\t}",
      b!"",
      b!"\t\tq.Users = append(q.Users, v)",
      b!"\t}",
      b!"\treturn rows.Err()",
      b!"}",
      b!""] }

/-- internal/testdata/generator/select/whereblock_array_comparison3_in.go:9 -/
def select_whereblock_array_comparison3_0 : List (FieldHdr × Ty) := [
    fld b!"Users" (.slice (.ptr c_User)) [(b!"rel", [b!"test_user:u"])],
    fld b!"Where" (.struct (.ofList [
    fld b!"IDs" (.slice (.basic .int b!"int")) [(b!"sql", [b!"u.id = any"])],
    fld b!"CreatedAt" (.struct (.ofList [
    fld b!"After" time_Time [(b!"sql", [b!"x"])],
    fld b!"Before" time_Time [(b!"sql", [b!"y"])]])) [(b!"sql", [b!"u.created_at isbetween"])],
    fld b!"Or" (.struct (.ofList [
    fld b!"IDs" (.slice (.basic .int b!"int")) [(b!"sql", [b!"u.id = any"])],
    fld b!"CreatedBefore" time_Time [(b!"sql", [b!"u.created_at <"])]])) [(b!"bool", [b!"or"]), (b!"sql", [b!">"])],
    fld b!"Emails" (.slice (.basic .string b!"string")) [(b!"bool", [b!"or"]), (b!"sql", [b!"u.email = some"])],
    fld b!"FullNames" (.slice (.basic .string b!"string")) [(b!"sql", [b!"u.full_name = some"])],
    fld b!"IsActive" (.basic .bool b!"bool") [(b!"sql", [b!"u.is_active"])]]))]

/-- internal/testdata/generator/select/whereblock_array_comparison3_out.go -/
def select_whereblock_array_comparison3 : Golden :=
  { dir := b!"select"
    file := b!"whereblock_array_comparison3"
    targets := [(b!"SelectWithWhereBlockArrayComparisonPredicate3Query", select_whereblock_array_comparison3_0)]
    want := [
      b!"// DO NOT EDIT. This file was generated by \"github.com/frk/gosql\".",
      b!"",
      b!"package testdata",
      b!"",
      b!"import (",
      b!"\t\"github.com/frk/gosql\"",
      b!"\t\"github.com/frk/gosql/internal/testdata/common\"",
      b!"\t\"github.com/frk/gosql/pgsql\"",
      b!")",
      b!"",
      b!"func (q *SelectWithWhereBlockArrayComparisonPredicate3Query) Exec(c gosql.Conn) error {",
      b!"\tconst queryString = `SELECT",
      b!"\tu.\"id\"",
      b!"\t, u.\"email\"",
      b!"\t, u.\"full_name\"",
      b!"\t, u.\"created_at\"",
      b!"\tFROM \"test_user\" AS u",
      b!"\tWHERE u.\"id\" = ANY($1::integer[])",
      b!"\tAND u.\"created_at\" BETWEEN $2 AND $3",
      b!"\tOR (u.\"id\" = ANY($4::integer[]) AND u.\"created_at\" < $5)",
      b!"\tOR u.\"email\" = SOME($6::text[])",
      b!"\tAND u.\"full_name\" = SOME($7::text[])",
      b!"\tAND u.\"is_active\" = $8` // `",
      b!"",
      b!"\trows, err := c.Query(queryString,",
      b!"\t\tpgsql.Int4ArrayFromIntSlice(q.Where.IDs),",
      b!"\t\tq.Where.CreatedAt.After,",
      b!"\t\tq.Where.CreatedAt.Before,",
      b!"\t\tpgsql.Int4ArrayFromIntSlice(q.Where.Or.IDs),",
      b!"\t\tq.Where.Or.CreatedBefore,",
      b!"\t\tpgsql.TextArrayFromStringSlice(q.Where.Emails),",
      b!"\t\tpgsql.TextArrayFromStringSlice(q.Where.FullNames),",
      b!"\t\tq.Where.IsActive,",
      b!"\t)",
      b!"\tif err != nil {",
      b!"\t\treturn err",
      b!"\t}",
      b!"\tdefer rows.Close()",
      b!"",
      b!"\tfor rows.Next() {",
      b!"\t\tv := new(common.User)",
      b!"\t\terr := rows.Scan(",
      b!"\t\t\t&v.Id,",
      b!"\t\t\t&v.Email,",
      b!"\t\t\t&v.FullName,",
      b!"\t\t\t&v.CreatedAt,",
      b!"\t\t)",
      b!"\t\tif err != nil {",
      b!"\t\t\treturn err",
      b!"\t\t}",
      b!"",
      b!"\t\tq.Users = append(q.Users, v)",
      b!"\t}",
      b!"\treturn rows.Err()",
      b!"}",
      b!""] }

/-- internal/testdata/generator/select/whereblock_between_in.go:9 -/
def select_whereblock_between_0 : List (FieldHdr × Ty) := [
    fld b!"Users" (.slice (.ptr c_User)) [(b!"rel", [b!"test_user:u"])],
    fld b!"Where" (.struct (.ofList [
    fld b!"CreatedAt" (.struct (.ofList [
    fld b!"After" time_Time [(b!"sql", [b!"x"])],
    fld b!"Before" time_Time [(b!"sql", [b!"y"])]])) [(b!"sql", [b!"u.created_at isbetween"])]]))]

/-- internal/testdata/generator/select/whereblock_between_out.go -/
def select_whereblock_between : Golden :=
  { dir := b!"select"
    file := b!"whereblock_between"
    targets := [(b!"SelectWithWhereBlockBetweenQuery", select_whereblock_between_0)]
    want := [
      b!"// DO NOT EDIT. This file was generated by \"github.com/frk/gosql\".",
      b!"",
      b!"package testdata",
      b!"",
      b!"import (",
      b!"\t\"github.com/frk/gosql\"",
      b!"\t\"github.com/frk/gosql/internal/testdata/common\"",
      b!")",
      b!"",
      b!"func (q *SelectWithWhereBlockBetweenQuery) Exec(c gosql.Conn) error {",
      b!"\tconst queryString = `SELECT",
      b!"\tu.\"id\"",
      b!"\t, u.\"email\"",
      b!"\t, u.\"full_name\"",
      b!"\t, u.\"created_at\"",
      b!"\tFROM \"test_user\" AS u",
      b!"\tWHERE u.\"created_at\" BETWEEN $1 AND $2` // `",
      b!"",
      b!"\trows, err := c.Query(queryString, q.Where.CreatedAt.After, q.Where.CreatedAt.Before)",
      b!"\tif err != nil {",
      b!"\t\treturn err",
      b!"\t}",
      b!"\tdefer rows.Close()",
      b!"",
      b!"\tfor rows.Next() {",
      b!"\t\tv := new(common.User)",
      b!"\t\terr := rows.Scan(",
      b!"\t\t\t&v.Id,",
      b!"\t\t\t&v.Email,",
      b!"\t\t\t&v.FullName,",
      b!"\t\t\t&v.CreatedAt,",
      b!"\t\t)",
      b!"\t\tif err != nil {",
      b!"\t\t\treturn err",
      b!"\t\t}",
      b!"",
      b!"\t\tq.Users = append(q.Users, v)",
      b!"\t}",
      b!"\treturn rows.Err()",
      b!"}",
      b!""] }

/-- internal/testdata/generator/select/whereblock_isin_in.go:7 -/
def select_whereblock_isin_0 : List (FieldHdr × Ty) := [
    fld b!"Users" (.slice (.ptr c_User)) [(b!"rel", [b!"test_user:u"])],
    fld b!"Where" (.struct (.ofList [
    fld b!"IDs" (.slice (.basic .int b!"int")) [(b!"sql", [b!"u.id isin"])]]))]

/-- internal/testdata/generator/select/whereblock_isin_out.go -/
def select_whereblock_isin : Golden :=
  { dir := b!"select"
    file := b!"whereblock_isin"
    targets := [(b!"SelectWithWhereBlockInPredicateQuery", select_whereblock_isin_0)]
    want := [
      b!"// DO NOT EDIT. This file was generated by \"github.com/frk/gosql\".",
      b!"",
      b!"package testdata",
      b!"",
      b!"import (",
      b!"\t\"github.com/frk/gosql\"",
      b!"\t\"github.com/frk/gosql/internal/testdata/common\"",
      b!")",
      b!"",
      b!"func (q *SelectWithWhereBlockInPredicateQuery) Exec(c gosql.Conn) error {",
      b!"\tvar (",
      b!"\t\tnstatic = 0                // number of static parameters",
      b!"\t\tlen1    = len(q.Where.IDs) // length of slice #1 to be unnested",
      b!"\t\tpos1    = nstatic          // starting position of slice #1 parameters",
      b!"\t)",
      b!"",
      b!"\tvar queryString = `SELECT",
      b!"\tu.\"id\"",
      b!"\t, u.\"email\"",
      b!"\t, u.\"full_name\"",
      b!"\t, u.\"created_at\"",
      b!"\tFROM \"test_user\" AS u",
      b!"\tWHERE u.\"id\" IN (` + gosql.InValueList(len1, pos1) + `)` // `",
      b!"",
      b!"\tparams := make([]interface{}, nstatic+len1)",
      b!"\tfor i := 0; i < len1; i++ {",
      b!"\t\tparams[pos1+i] = q.Where.IDs[i]",
      b!"\t}",
      b!"",
      b!"\trows, err := c.Query(queryString, params...)",
      b!"\tif err != nil {",
      b!"\t\treturn err",
      b!"\t}",
      b!"\tdefer rows.Close()",
      b!"",
      b!"\tfor rows.Next() {",
      b!"\t\tv := new(common.User)",
      b!"\t\terr := rows.Scan(",
      b!"\t\t\t&v.Id,",
      b!"\t\t\t&v.Email,",
      b!"\t\t\t&v.FullName,",
      b!"\t\t\t&v.CreatedAt,",
      b!"\t\t)",
      b!"\t\tif err != nil {",
      b!"\t\t\treturn err",
      b!"\t\t}",
      b!"",
      b!"\t\tq.Users = append(q.Users, v)",
      b!"\t}",
      b!"\treturn rows.Err()",
      b!"}",
      b!""] }

/-- internal/testdata/generator/select/whereblock_isin2_in.go:9 -/
def select_whereblock_isin2_0 : List (FieldHdr × Ty) := [
    fld b!"Users" (.slice (.ptr c_User)) [(b!"rel", [b!"test_user:u"])],
    fld b!"Where" (.struct (.ofList [
    fld b!"CreatedAt" (.struct (.ofList [
    fld b!"After" time_Time [(b!"sql", [b!"x"])],
    fld b!"Before" time_Time [(b!"sql", [b!"y"])]])) [(b!"sql", [b!"u.created_at isbetween"])],
    fld b!"Or" (.struct (.ofList [
    fld b!"IDs" (.slice (.basic .int b!"int")) [(b!"sql", [b!"u.id isin"])],
    fld b!"CreatedBefore" time_Time [(b!"sql", [b!"u.created_at <"])]])) [(b!"bool", [b!"or"]), (b!"sql", [b!">"])]]))]

/-- internal/testdata/generator/select/whereblock_isin2_out.go -/
def select_whereblock_isin2 : Golden :=
  { dir := b!"select"
    file := b!"whereblock_isin2"
    targets := [(b!"SelectWithWhereBlockInPredicate2Query", select_whereblock_isin2_0)]
    want := [
      b!"// DO NOT EDIT. This file was generated by \"github.com/frk/gosql\".",
      b!"",
      b!"package testdata",
      b!"",
      b!"import (",
      b!"\t\"github.com/frk/gosql\"",
      b!"\t\"github.com/frk/gosql/internal/testdata/common\"",
      b!")",
      b!"",
      b!"func (q *SelectWithWhereBlockInPredicate2Query) Exec(c gosql.Conn) error {",
      b!"\tvar (",
      b!"\t\tnstatic = 3                   // number of static parameters",
      b!"\t\tlen1    = len(q.Where.Or.IDs) // length of slice #1 to be unnested",
      b!"\t\tpos1    = nstatic             // starting position of slice #1 parameters",
      b!"\t)",
      b!"",
      b!"\tvar queryString = `SELECT",
      b!"\tu.\"id\"",
      b!"\t, u.\"email\"",
      b!"\t, u.\"full_name\"",
      b!"\t, u.\"created_at\"",
      b!"\tFROM \"test_user\" AS u",
      b!"\tWHERE u.\"created_at\" BETWEEN $1 AND $2",
      b!"\tOR (u.\"id\" IN (` + gosql.InValueList(len1, pos1) + `) AND u.\"created_at\" < $3)` // `",
      b!"",
      b!"\tparams := make([]interface{}, nstatic+len1)",
      b!"\tparams[0] = q.Where.CreatedAt.After",
      b!"\tparams[1] = q.Where.CreatedAt.Before",
      b!"\tparams[2] = q.Where.Or.CreatedBefore",
      b!"\tfor i := 0; i < len1; i++ {",
      b!"\t\tparams[pos1+i] = q.Where.Or.IDs[i]",
      b!"\t}",
      b!"",
      b!"\trows, err := c.Query(queryString, params...)",
      b!"\tif err != nil {",
      b!"\t\treturn err",
      b!"\t}",
      b!"\tdefer rows.Close()",
      b!"",
      b!"\tfor rows.Next() {",
      b!"\t\tv := new(common.User)",
      b!"\t\terr := rows.Scan(",
      b!"\t\t\t&v.Id,",
      b!"\t\t\t&v.Email,",
      b!"\t\t\t&v.FullName,",
      b!"\t\t\t&v.CreatedAt,",
      b!"\t\t)",
      b!"\t\tif err != nil {",
      b!"\t\t\treturn err",
      b!"\t\t}",
      b!"",
      b!"\t\tq.Users = append(q.Users, v)",
      b!"\t}",
      b!"\treturn rows.Err()",
      b!"}",
      b!""] }

/-- internal/testdata/generator/select/whereblock_isin3_in.go:9 -/
def select_whereblock_isin3_0 : List (FieldHdr × Ty) := [
    fld b!"Users" (.slice (.ptr c_User)) [(b!"rel", [b!"test_user:u"])],
    fld b!"Where" (.struct (.ofList [
    fld b!"IDs" (.slice (.basic .int b!"int")) [(b!"sql", [b!"u.id isin"])],
    fld b!"CreatedAt" (.struct (.ofList [
    fld b!"After" time_Time [(b!"sql", [b!"x"])],
    fld b!"Before" time_Time [(b!"sql", [b!"y"])]])) [(b!"sql", [b!"u.created_at isbetween"])],
    fld b!"Or" (.struct (.ofList [
    fld b!"IDs" (.slice (.basic .int b!"int")) [(b!"sql", [b!"u.id isin"])],
    fld b!"CreatedBefore" time_Time [(b!"sql", [b!"u.created_at <"])]])) [(b!"bool", [b!"or"]), (b!"sql", [b!">"])],
    fld b!"Emails" (.slice (.basic .string b!"string")) [(b!"bool", [b!"or"]), (b!"sql", [b!"u.email isin"])],
    fld b!"FullNames" (.slice (.basic .string b!"string")) [(b!"sql", [b!"u.full_name isin"])],
    fld b!"IsActive" (.basic .bool b!"bool") [(b!"sql", [b!"u.is_active"])]]))]

/-- internal/testdata/generator/select/whereblock_isin3_out.go -/
def select_whereblock_isin3 : Golden :=
  { dir := b!"select"
    file := b!"whereblock_isin3"
    targets := [(b!"SelectWithWhereBlockInPredicate3Query", select_whereblock_isin3_0)]
    want := [
      b!"// DO NOT EDIT. This file was generated by \"github.com/frk/gosql\".",
      b!"",
      b!"package testdata",
      b!"",
      b!"import (",
      b!"\t\"github.com/frk/gosql\"",
      b!"\t\"github.com/frk/gosql/internal/testdata/common\"",
      b!")",
      b!"",
      b!"func (q *SelectWithWhereBlockInPredicate3Query) Exec(c gosql.Conn) error {",
      b!"\tvar (",
      b!"\t\tnstatic = 4                      // number of static parameters",
      b!"\t\tlen1    = len(q.Where.IDs)       // length of slice #1 to be unnested",
      b!"\t\tpos1    = nstatic                // starting position of slice #1 parameters",
      b!"\t\tlen2    = len(q.Where.Or.IDs)    // length of slice #2 to be unnested",
      b!"\t\tpos2    = pos1 + len1            // starting position of slice #2 parameters",
      b!"\t\tlen3    = len(q.Where.Emails)    // length of slice #3 to be unnested",
      b!"\t\tpos3    = pos2 + len2            // starting position of slice #3 parameters",
      b!"\t\tlen4    = len(q.Where.FullNames) // length of slice #4 to be unnested",
      b!"\t\tpos4    = pos3 + len3            // starting position of slice #4 parameters",
      b!"\t)",
      b!"",
      b!"\tvar queryString = `SELECT",
      b!"\tu.\"id\"",
      b!"\t, u.\"email\"",
      b!"\t, u.\"full_name\"",
      b!"\t, u.\"created_at\"",
      b!"\tFROM \"test_user\" AS u",
      b!"\tWHERE u.\"id\" IN (` + gosql.InValueList(len1, pos1) + `)",
      b!"\tAND u.\"created_at\" BETWEEN $1 AND $2",
      b!"\tOR (u.\"id\" IN (` + gosql.InValueList(len2, pos2) + `) AND u.\"created_at\" < $3)",
      b!"\tOR u.\"email\" IN (` + gosql.InValueList(len3, pos3) + `)",
      b!"\tAND u.\"full_name\" IN (` + gosql.InValueList(len4, pos4) + `)",
      b!"\tAND u.\"is_active\" = $4` // `",
      b!"",
      b!"\tparams := make([]interface{}, nstatic+len1+len2+len3+len4)",
      b!"\tparams[0] = q.Where.CreatedAt.After",
      b!"\tparams[1] = q.Where.CreatedAt.Before",
      b!"\tparams[2] = q.Where.Or.CreatedBefore",
      b!"\tparams[3] = q.Where.IsActive",
      b!"\tfor i := 0; i < len1; i++ {",
      b!"\t\tparams[pos1+i] = q.Where.IDs[i]",
      b!"\t}",
      b!"\tfor i := 0; i < len2; i++ {",
      b!"\t\tparams[pos2+i] = q.Where.Or.IDs[i]",
      b!"\t}",
      b!"\tfor i := 0; i < len3; i++ {",
      b!"\t\tparams[pos3+i] = q.Where.Emails[i]",
      b!"\t}",
      b!"\tfor i := 0; i < len4; i++ {",
      b!"\t\tparams[pos4+i] = q.Where.FullNames[i]",
      b!"\t}",
      b!"",
      b!"\trows, err := c.Query(queryString, params...)",
      b!"\tif err != nil {",
      b!"\t\treturn err",
      b!"\t}",
      b!"\tdefer rows.Close()",
      b!"",
      b!"\tfor rows.Next() {",
      b!"\t\tv := new(common.User)",
      b!"\t\terr := rows.Scan(",
      b!"\t\t\t&v.Id,",
      b!"\t\t\t&v.Email,",
      b!"\t\t\t&v.FullName,",
      b!"\t\t\t&v.CreatedAt,",
      b!"\t\t)",
      b!"\t\tif err != nil {",
      b!"\t\t\treturn err",
      b!"\t\t}",
      b!"",
      b!"\t\tq.Users = append(q.Users, v)",
      b!"\t}",
      b!"\treturn rows.Err()",
      b!"}",
      b!""] }

/-- internal/testdata/generator/select/whereblock_modifierfunc_single_in.go:7 -/
def select_whereblock_modifierfunc_single_0 : List (FieldHdr × Ty) := [
    fld b!"User" (.ptr c_User) [(b!"rel", [b!"test_user:u"])],
    fld b!"Where" (.struct (.ofList [
    fld b!"Email" (.basic .string b!"string") [(b!"sql", [b!"u.email", b!"@lower"])]]))]

/-- internal/testdata/generator/select/whereblock_modifierfunc_single_out.go -/
def select_whereblock_modifierfunc_single : Golden :=
  { dir := b!"select"
    file := b!"whereblock_modifierfunc_single"
    targets := [(b!"SelectWithWhereBlockModifierFuncSingleQuery", select_whereblock_modifierfunc_single_0)]
    want := [
      b!"// DO NOT EDIT. This file was generated by \"github.com/frk/gosql\".",
      b!"",
      b!"package testdata",
      b!"",
      b!"import (",
      b!"\t\"github.com/frk/gosql\"",
      b!"\t\"github.com/frk/gosql/internal/testdata/common\"",
      b!")",
      b!"",
      b!"func (q *SelectWithWhereBlockModifierFuncSingleQuery) Exec(c gosql.Conn) error {",
      b!"\tconst queryString = `SELECT",
      b!"\tu.\"id\"",
      b!"\t, u.\"email\"",
      b!"\t, u.\"full_name\"",
      b!"\t, u.\"created_at\"",
      b!"\tFROM \"test_user\" AS u",
      b!"\tWHERE lower(u.\"email\") = lower($1)",
      b!"\tLIMIT 1` // `",
      b!"",
      b!"\trow := c.QueryRow(queryString, q.Where.Email)",
      b!"",
      b!"\tq.User = new(common.User)",
      b!"\treturn row.Scan(",
      b!"\t\t&q.User.Id,",
      b!"\t\t&q.User.Email,",
      b!"\t\t&q.User.FullName,",
      b!"\t\t&q.User.CreatedAt,",
      b!"\t)",
      b!"}",
      b!""] }

/-- internal/testdata/generator/select/whereblock_nested_in.go:9 -/
def select_whereblock_nested_0 : List (FieldHdr × Ty) := [
    fld b!"Users" (.slice (.ptr c_User)) [(b!"rel", [b!"test_user:u"])],
    fld b!"Where" (.struct (.ofList [
    fld b!"FullName" (.basic .string b!"string") [(b!"sql", [b!"u.full_name islike"])],
    fld b!"CreatedAfter" time_Time [(b!"sql", [b!"u.created_at >"])],
    fld b!"Or" (.struct (.ofList [
    fld b!"FullName" (.basic .string b!"string") [(b!"sql", [b!"u.full_name islike"])],
    fld b!"CreatedBefore" time_Time [(b!"sql", [b!"u.created_at <"])]])) [(b!"bool", [b!"or"]), (b!"sql", [b!">"])]]))]

/-- internal/testdata/generator/select/whereblock_nested_out.go -/
def select_whereblock_nested : Golden :=
  { dir := b!"select"
    file := b!"whereblock_nested"
    targets := [(b!"SelectWithWhereBlockNestedQuery", select_whereblock_nested_0)]
    want := [
      b!"// DO NOT EDIT. This file was generated by \"github.com/frk/gosql\".",
      b!"",
      b!"package testdata",
      b!"",
      b!"import (",
      b!"\t\"github.com/frk/gosql\"",
      b!"\t\"github.com/frk/gosql/internal/testdata/common\"",
      b!")",
      b!"",
      b!"func (q *SelectWithWhereBlockNestedQuery) Exec(c gosql.Conn) error {",
      b!"\tconst queryString = `SELECT",
      b!"\tu.\"id\"",
      b!"\t, u.\"email\"",
      b!"\t, u.\"full_name\"",
      b!"\t, u.\"created_at\"",
      b!"\tFROM \"test_user\" AS u",
      b!"\tWHERE u.\"full_name\" LIKE $1",
      b!"\tAND u.\"created_at\" > $2",
      b!"\tOR (u.\"full_name\" LIKE $3 AND u.\"created_at\" < $4)` // `",
      b!"",
      b!"\trows, err := c.Query(queryString,",
      b!"\t\tq.Where.FullName,",
      b!"\t\tq.Where.CreatedAfter,",
      b!"\t\tq.Where.Or.FullName,",
      b!"\t\tq.Where.Or.CreatedBefore,",
      b!"\t)",
      b!"\tif err != nil {",
      b!"\t\treturn err",
      b!"\t}",
      b!"\tdefer rows.Close()",
      b!"",
      b!"\tfor rows.Next() {",
      b!"\t\tv := new(common.User)",
      b!"\t\terr := rows.Scan(",
      b!"\t\t\t&v.Id,",
      b!"\t\t\t&v.Email,",
      b!"\t\t\t&v.FullName,",
      b!"\t\t\t&v.CreatedAt,",
      b!"\t\t)",
      b!"\t\tif err != nil {",
      b!"\t\t\treturn err",
      b!"\t\t}",
      b!"",
      b!"\t\tq.Users = append(q.Users, v)",
      b!"\t}",
      b!"\treturn rows.Err()",
      b!"}",
      b!""] }

/-- internal/testdata/generator/select/whereblock_single_in.go:7 -/
def select_whereblock_single_0 : List (FieldHdr × Ty) := [
    fld b!"User" (.ptr c_User) [(b!"rel", [b!"test_user:u"])],
    fld b!"Where" (.struct (.ofList [
    fld b!"Id" (.basic .int b!"int") [(b!"sql", [b!"u.id"])]]))]

/-- internal/testdata/generator/select/whereblock_single_out.go -/
def select_whereblock_single : Golden :=
  { dir := b!"select"
    file := b!"whereblock_single"
    targets := [(b!"SelectWithWhereBlockSingleQuery", select_whereblock_single_0)]
    want := [
      b!"// DO NOT EDIT. This file was generated by \"github.com/frk/gosql\".",
      b!"",
      b!"package testdata",
      b!"",
      b!"import (",
      b!"\t\"github.com/frk/gosql\"",
      b!"\t\"github.com/frk/gosql/internal/testdata/common\"",
      b!")",
      b!"",
      b!"func (q *SelectWithWhereBlockSingleQuery) Exec(c gosql.Conn) error {",
      b!"\tconst queryString = `SELECT",
      b!"\tu.\"id\"",
      b!"\t, u.\"email\"",
      b!"\t, u.\"full_name\"",
      b!"\t, u.\"created_at\"",
      b!"\tFROM \"test_user\" AS u",
      b!"\tWHERE u.\"id\" = $1",
      b!"\tLIMIT 1` // `",
      b!"",
      b!"\trow := c.QueryRow(queryString, q.Where.Id)",
      b!"",
      b!"\tq.User = new(common.User)",
      b!"\treturn row.Scan(",
      b!"\t\t&q.User.Id,",
      b!"\t\t&q.User.Email,",
      b!"\t\t&q.User.FullName,",
      b!"\t\t&q.User.CreatedAt,",
      b!"\t)",
      b!"}",
      b!""] }

/-- internal/testdata/generator/select/whereblock_single2_in.go:8 -/
def select_whereblock_single2_0 : List (FieldHdr × Ty) := [
    fld b!"Rel" (.ptr d_CT3b) [(b!"rel", [b!"column_tests_3"])],
    fld b!"Where" (.struct (.ofList [
    fld b!"SomeTime" c_MyTime [(b!"sql", [b!"some_time <"])]]))]

/-- internal/testdata/generator/select/whereblock_single2_out.go -/
def select_whereblock_single2 : Golden :=
  { dir := b!"select"
    file := b!"whereblock_single2"
    targets := [(b!"SelectWithWhereBlockSingle2Query", select_whereblock_single2_0)]
    want := [
      b!"// DO NOT EDIT. This file was generated by \"github.com/frk/gosql\".",
      b!"",
      b!"package testdata",
      b!"",
      b!"import (",
      b!"\t\"github.com/frk/gosql\"",
      b!"\t\"github.com/frk/gosql/internal/testdata\"",
      b!")",
      b!"",
      b!"func (q *SelectWithWhereBlockSingle2Query) Exec(c gosql.Conn) error {",
      b!"\tconst queryString = `SELECT",
      b!"\tCOALESCE(\"color_text\", ''::text)",
      b!"\t, \"color_enum\"",
      b!"\t, \"some_time\"",
      b!"\tFROM \"column_tests_3\"",
      b!"\tWHERE \"some_time\" < $1",
      b!"\tLIMIT 1` // `",
      b!"",
      b!"\trow := c.QueryRow(queryString, q.Where.SomeTime)",
      b!"",
      b!"\tq.Rel = new(testdata.CT3b)",
      b!"\treturn row.Scan(",
      b!"\t\t&q.Rel.ColorText,",
      b!"\t\t&q.Rel.ColorEnum,",
      b!"\t\t&q.Rel.SomeTime,",
      b!"\t)",
      b!"}",
      b!""] }

/-- internal/testdata/generator/select/whereblock_slice_in.go:9 -/
def select_whereblock_slice_0 : List (FieldHdr × Ty) := [
    fld b!"Users" (.slice (.ptr c_User)) [(b!"rel", [b!"test_user:u"])],
    fld b!"Where" (.struct (.ofList [
    fld b!"CreatedAfter" time_Time [(b!"sql", [b!"u.created_at >"])]]))]

/-- internal/testdata/generator/select/whereblock_slice_out.go -/
def select_whereblock_slice : Golden :=
  { dir := b!"select"
    file := b!"whereblock_slice"
    targets := [(b!"SelectWithWhereBlockSliceQuery", select_whereblock_slice_0)]
    want := [
      b!"// DO NOT EDIT. This file was generated by \"github.com/frk/gosql\".",
      b!"",
      b!"package testdata",
      b!"",
      b!"import (",
      b!"\t\"github.com/frk/gosql\"",
      b!"\t\"github.com/frk/gosql/internal/testdata/common\"",
      b!")",
      b!"",
      b!"func (q *SelectWithWhereBlockSliceQuery) Exec(c gosql.Conn) error {",
      b!"\tconst queryString = `SELECT",
      b!"\tu.\"id\"",
      b!"\t, u.\"email\"",
      b!"\t, u.\"full_name\"",
      b!"\t, u.\"created_at\"",
      b!"\tFROM \"test_user\" AS u",
      b!"\tWHERE u.\"created_at\" > $1` // `",
      b!"",
      b!"\trows, err := c.Query(queryString, q.Where.CreatedAfter)",
      b!"\tif err != nil {",
      b!"\t\treturn err",
      b!"\t}",
      b!"\tdefer rows.Close()",
      b!"",
      b!"\tfor rows.Next() {",
      b!"\t\tv := new(common.User)",
      b!"\t\terr := rows.Scan(",
      b!"\t\t\t&v.Id,",
      b!"\t\t\t&v.Email,",
      b!"\t\t\t&v.FullName,",
      b!"\t\t\t&v.CreatedAt,",
      b!"\t\t)",
      b!"\t\tif err != nil {",
      b!"\t\t\treturn err",
      b!"\t\t}",
      b!"",
      b!"\t\tq.Users = append(q.Users, v)",
      b!"\t}",
      b!"\treturn rows.Err()",
      b!"}",
      b!""] }

def selectGoldens0 : List Golden := [
  select_afterscan_single, select_afterscan_slice, select_coalesce_table, select_count_basic]

def selectGoldens1 : List Golden := [
  select_count_filter, select_count_where, select_exists_filter, select_exists_where]

def selectGoldens2 : List Golden := [
  select_iterator_func, select_iterator_func_errorhandler, select_iterator_iface,
  select_filter_slice]

def selectGoldens3 : List Golden := [
  select_filter_iterator, select_joinblock_slice, select_limit_directive,
  select_limit_field_default]

def selectGoldens4 : List Golden := [
  select_limit_field, select_notexists_where, select_notexists_filter, select_offset_directive]

def selectGoldens5 : List Golden := [
  select_offset_field_default, select_offset_field, select_orderby_directive,
  select_record_nested_single]

def selectGoldens6 : List Golden := [
  select_record_nested_slice, select_whereblock_array_comparison1,
  select_whereblock_array_comparison2, select_whereblock_array_comparison3]

def selectGoldens7 : List Golden := [
  select_whereblock_between, select_whereblock_isin, select_whereblock_isin2,
  select_whereblock_isin3]

def selectGoldens8 : List Golden := [
  select_whereblock_modifierfunc_single, select_whereblock_nested, select_whereblock_single,
  select_whereblock_single2]

def selectGoldens9 : List Golden := [
  select_whereblock_slice]

def selectGoldens : List Golden :=
  selectGoldens0 ++ selectGoldens1 ++ selectGoldens2 ++ selectGoldens3 ++ selectGoldens4 ++ selectGoldens5 ++
  selectGoldens6 ++ selectGoldens7 ++ selectGoldens8 ++ selectGoldens9

end Verif.Conform
