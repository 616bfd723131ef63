import Verif.Conform.GoldTypes
import Verif.Conform.GoldBase

/-
The input and the expected output of the generator tests, /repo/internal/testdata/generator/delete.

This file is written by /verif/tools/conform.py; do not edit it by hand.
-/
namespace Verif.Conform
open Verif.Analysis

/-- internal/testdata/generator/delete/all_directive_in.go:7 -/
def delete_all_directive_0 : List (FieldHdr × Ty) := [
    low b!"_" g_Relation [(b!"rel", [b!"test_user"])],
    low b!"_" g_All]

/-- internal/testdata/generator/delete/all_directive_out.go -/
def delete_all_directive : Golden :=
  { dir := b!"delete"
    file := b!"all_directive"
    targets := [(b!"DeleteWithAllDirectiveQuery", delete_all_directive_0)]
    want := [
      b!"// DO NOT EDIT. This file was generated by \"github.com/frk/gosql\".",
      b!"",
      b!"package testdata",
      b!"",
      b!"import (",
      b!"\t\"github.com/frk/gosql\"",
      b!")",
      b!"",
      b!"func (q *DeleteWithAllDirectiveQuery) Exec(c gosql.Conn) error {",
      b!"\tconst queryString = `DELETE FROM \"test_user\"` // `",
      b!"",
      b!"\t_, err := c.Exec(queryString)",
      b!"\treturn err",
      b!"}",
      b!""] }

/-- internal/testdata/generator/delete/datatype_1_in.go:7 -/
def delete_datatype_1_0 : List (FieldHdr × Ty) := [
    fld b!"User" (.ptr c_User) [(b!"rel", [b!"test_user:u"])],
    fld b!"Where" (.struct (.ofList [
    fld b!"Id" (.basic .int b!"int") [(b!"sql", [b!"u.id"])]]))]

/-- internal/testdata/generator/delete/datatype_1_out.go -/
def delete_datatype_1 : Golden :=
  { dir := b!"delete"
    file := b!"datatype_1"
    targets := [(b!"DeleteWithDatatype1Query", delete_datatype_1_0)]
    want := [
      b!"// DO NOT EDIT. This file was generated by \"github.com/frk/gosql\".",
      b!"",
      b!"package testdata",
      b!"",
      b!"import (",
      b!"\t\"github.com/frk/gosql\"",
      b!")",
      b!"",
      b!"func (q *DeleteWithDatatype1Query) Exec(c gosql.Conn) error {",
      b!"\tconst queryString = `DELETE FROM \"test_user\" AS u",
      b!"\tWHERE u.\"id\" = $1` // `",
      b!"",
      b!"\t_, err := c.Exec(queryString, q.Where.Id)",
      b!"\treturn err",
      b!"}",
      b!""] }

/-- internal/testdata/generator/delete/datatype_2_in.go:7 -/
def delete_datatype_2_0 : List (FieldHdr × Ty) := [
    low b!"_" (.ptr c_User) [(b!"rel", [b!"test_user:u"])],
    fld b!"Where" (.struct (.ofList [
    fld b!"Id" (.basic .int b!"int") [(b!"sql", [b!"u.id"])]]))]

/-- internal/testdata/generator/delete/datatype_2_out.go -/
def delete_datatype_2 : Golden :=
  { dir := b!"delete"
    file := b!"datatype_2"
    targets := [(b!"DeleteWithDatatype2Query", delete_datatype_2_0)]
    want := [
      b!"// DO NOT EDIT. This file was generated by \"github.com/frk/gosql\".",
      b!"",
      b!"package testdata",
      b!"",
      b!"import (",
      b!"\t\"github.com/frk/gosql\"",
      b!")",
      b!"",
      b!"func (q *DeleteWithDatatype2Query) Exec(c gosql.Conn) error {",
      b!"\tconst queryString = `DELETE FROM \"test_user\" AS u",
      b!"\tWHERE u.\"id\" = $1` // `",
      b!"",
      b!"\t_, err := c.Exec(queryString, q.Where.Id)",
      b!"\treturn err",
      b!"}",
      b!""] }

/-- internal/testdata/generator/delete/filter_in.go:7 -/
def delete_filter_0 : List (FieldHdr × Ty) := [
    low b!"_" g_Relation [(b!"rel", [b!"test_user"])],
    emb b!"Filter" g_Filter]

/-- internal/testdata/generator/delete/filter_out.go -/
def delete_filter : Golden :=
  { dir := b!"delete"
    file := b!"filter"
    targets := [(b!"DeleteWithFilterQuery", delete_filter_0)]
    want := [
      b!"// DO NOT EDIT. This file was generated by \"github.com/frk/gosql\".",
      b!"",
      b!"package testdata",
      b!"",
      b!"import (",
      b!"\t\"github.com/frk/gosql\"",
      b!")",
      b!"",
      b!"func (q *DeleteWithFilterQuery) Exec(c gosql.Conn) error {",
      b!"\tvar queryString = `DELETE FROM \"test_user\"` // `",
      b!"",
      b!"\tfilterString, params := q.Filter.ToSQL(0)",
      b!"\tqueryString += filterString",
      b!"",
      b!"\t_, err := c.Exec(queryString, params...)",
      b!"\treturn err",
      b!"}",
      b!""] }

/-- internal/testdata/generator/delete/result_iterator_afterscan_in.go:10 -/
def delete_result_iterator_afterscan_0 : List (FieldHdr × Ty) := [
    low b!"_" g_Relation [(b!"rel", [b!"test_user:u"])],
    fld b!"Where" (.struct (.ofList [
    fld b!"CreatedBefore" time_Time [(b!"sql", [b!"u.created_at <"])]])),
    fld b!"Result" c_User2Iterator]

/-- internal/testdata/generator/delete/result_iterator_afterscan_out.go -/
def delete_result_iterator_afterscan : Golden :=
  { dir := b!"delete"
    file := b!"result_iterator_afterscan"
    targets := [(b!"DeleteWithResultIteratorAfterScanQuery", delete_result_iterator_afterscan_0)]
    want := [
      b!"// DO NOT EDIT. This file was generated by \"github.com/frk/gosql\".",
      b!"",
      b!"package testdata",
      b!"",
      b!"import (",
      b!"\t\"github.com/frk/gosql\"",
      b!"\t\"github.com/frk/gosql/internal/testdata/common\"",
      b!")",
      b!"",
      b!"func (q *DeleteWithResultIteratorAfterScanQuery) Exec(c gosql.Conn) error {",
      b!"\tconst queryString = `DELETE FROM \"test_user\" AS u",
      b!"\tWHERE u.\"created_at\" < $1",
      b!"\tRETURNING",
      b!"\tu.\"id\"",
      b!"\t, u.\"email\"",
      b!"\t, u.\"full_name\"",
      b!"\t, u.\"created_at\"` // `",
      b!"",
      b!"\trows, err := c.Query(queryString, q.Where.CreatedBefore)",
      b!"\tif err != nil {",
      b!"\t\treturn err",
      b!"\t}",
      b!"\tdefer rows.Close()",
      b!"",
      b!"\tfor rows.Next() {",
      b!"\t\tv := new(common.User2)",
      b!"\t\terr := rows.Scan(",
      b!"\t\t\t&v.Id,",
      b!"\t\t\t&v.Email,",
      b!"\t\t\t&v.FullName,",
      b!"\t\t\t&v.CreatedAt,",
      b!"\t\t)",
      b!"\t\tif err != nil {",
      b!"\t\t\treturn err",
      b!"\t\t}",
      b!"",
      b!"\t\tv.AfterScan()",
      b!"\t\tif err := q.Result.NextUser(v); err != nil {",
      b!"\t\t\treturn err",
      b!"\t\t}",
      b!"\t}",
      b!"\treturn rows.Err()",
      b!"}",
      b!""] }

/-- internal/testdata/generator/delete/result_iterator_errorhandler_in.go:10 -/
def delete_result_iterator_errorhandler_0 : List (FieldHdr × Ty) := [
    low b!"_" g_Relation [(b!"rel", [b!"test_user:u"])],
    fld b!"Where" (.struct (.ofList [
    fld b!"CreatedBefore" time_Time [(b!"sql", [b!"u.created_at <"])]])),
    fld b!"Result" c_User2Iterator,
    low b!"errhandler" c_ErrorHandler]

/-- internal/testdata/generator/delete/result_iterator_errorhandler_out.go -/
def delete_result_iterator_errorhandler : Golden :=
  { dir := b!"delete"
    file := b!"result_iterator_errorhandler"
    targets := [(b!"DeleteWithResultIteratorErrorHandlerQuery", delete_result_iterator_errorhandler_0)]
    want := [
      b!"// DO NOT EDIT. This file was generated by \"github.com/frk/gosql\".",
      b!"",
      b!"package testdata",
      b!"",
      b!"import (",
      b!"\t\"github.com/frk/gosql\"",
      b!"\t\"github.com/frk/gosql/internal/testdata/common\"",
      b!")",
      b!"",
      b!"func (q *DeleteWithResultIteratorErrorHandlerQuery) Exec(c gosql.Conn) error {",
      b!"\tconst queryString = `DELETE FROM \"test_user\" AS u",
      b!"\tWHERE u.\"created_at\" < $1",
      b!"\tRETURNING",
      b!"\tu.\"id\"",
      b!"\t, u.\"email\"",
      b!"\t, u.\"full_name\"",
      b!"\t, u.\"created_at\"` // `",
      b!"",
      b!"\trows, err := c.Query(queryString, q.Where.CreatedBefore)",
      b!"\tif err != nil {",
      b!"\t\treturn q.errhandler.HandleError(err)",
      b!"\t}",
      b!"\tdefer rows.Close()",
      b!"",
      b!"\tfor rows.Next() {",
      b!"\t\tv := new(common.User2)",
      b!"\t\terr := rows.Scan(",
      b!"\t\t\t&v.Id,",
      b!"\t\t\t&v.Email,",
      b!"\t\t\t&v.FullName,",
      b!"\t\t\t&v.CreatedAt,",
      b!"\t\t)",
      b!"\t\tif err != nil {",
      b!"\t\t\treturn q.errhandler.HandleError(err)",
      b!"\t\t}",
      b!"",
      b!"\t\tv.AfterScan()",
      b!"\t\tif err := q.Result.NextUser(v); err != nil {",
      b!"\t\t\treturn q.errhandler.HandleError(err)",
      b!"\t\t}",
      b!"\t}",
      b!"\treturn q.errhandler.HandleError(rows.Err())",
      b!"}",
      b!""] }

/-- internal/testdata/generator/delete/result_iterator_errorinfohandler_in.go:10 -/
def delete_result_iterator_errorinfohandler_0 : List (FieldHdr × Ty) := [
    low b!"_" g_Relation [(b!"rel", [b!"test_user:u"])],
    fld b!"Where" (.struct (.ofList [
    fld b!"CreatedBefore" time_Time [(b!"sql", [b!"u.created_at <"])]])),
    fld b!"Result" c_User2Iterator,
    low b!"errhandler" c_ErrorInfoHandler]

/-- internal/testdata/generator/delete/result_iterator_errorinfohandler_out.go -/
def delete_result_iterator_errorinfohandler : Golden :=
  { dir := b!"delete"
    file := b!"result_iterator_errorinfohandler"
    targets := [(b!"DeleteWithResultIteratorErrorInfoHandlerQuery", delete_result_iterator_errorinfohandler_0)]
    want := [
      b!"// DO NOT EDIT. This file was generated by \"github.com/frk/gosql\".",
      b!"",
      b!"package testdata",
      b!"",
      b!"import (",
      b!"\t\"github.com/frk/gosql\"",
      b!"\t\"github.com/frk/gosql/internal/testdata/common\"",
      b!")",
      b!"",
      b!"func (q *DeleteWithResultIteratorErrorInfoHandlerQuery) Exec(c gosql.Conn) error {",
      b!"\tconst queryString = `DELETE FROM \"test_user\" AS u",
      b!"\tWHERE u.\"created_at\" < $1",
      b!"\tRETURNING",
      b!"\tu.\"id\"",
      b!"\t, u.\"email\"",
      b!"\t, u.\"full_name\"",
      b!"\t, u.\"created_at\"` // `",
      b!"",
      b!"\trows, err := c.Query(queryString, q.Where.CreatedBefore)",
      b!"\tif err != nil {",
      b!"\t\treturn q.errhandler.HandleErrorInfo(&gosql.ErrorInfo{Error: err, QueryString: queryString, QueryKind: \"Delete\", QueryName: \"DeleteWithResultIteratorErrorInfoHandlerQuery\", QueryValue: q})",
      b!"\t}",
      b!"\tdefer rows.Close()",
      b!"",
      b!"\tfor rows.Next() {",
      b!"\t\tv := new(common.User2)",
      b!"\t\terr := rows.Scan(",
      b!"\t\t\t&v.Id,",
      b!"\t\t\t&v.Email,",
      b!"\t\t\t&v.FullName,",
      b!"\t\t\t&v.CreatedAt,",
      b!"\t\t)",
      b!"\t\tif err != nil {",
      b!"\t\t\treturn q.errhandler.HandleErrorInfo(&gosql.ErrorInfo{Error: err, QueryString: queryString, QueryKind: \"Delete\", QueryName: \"DeleteWithResultIteratorErrorInfoHandlerQuery\", QueryValue: q})",
      b!"\t\t}",
      b!"",
      b!"\t\tv.AfterScan()",
      b!"\t\tif err := q.Result.NextUser(v); err != nil {",
      b!"\t\t\treturn q.errhandler.HandleErrorInfo(&gosql.ErrorInfo{Error: err, QueryString: queryString, QueryKind: \"Delete\", QueryName: \"DeleteWithResultIteratorErrorInfoHandlerQuery\", QueryValue: q})",
      b!"\t\t}",
      b!"\t}",
      b!"\tif err := rows.Err(); err != nil {",
      b!"\t\treturn q.errhandler.HandleErrorInfo(&gosql.ErrorInfo{Error: err, QueryString: queryString, QueryKind: \"Delete\", QueryName: \"DeleteWithResultIteratorErrorInfoHandlerQuery\", QueryValue: q})",
      b!"\t}",
      b!"\treturn nil",
      b!"}",
      b!""] }

/-- internal/testdata/generator/delete/result_iterator_in.go:10 -/
def delete_result_iterator_0 : List (FieldHdr × Ty) := [
    low b!"_" g_Relation [(b!"rel", [b!"test_user:u"])],
    fld b!"Where" (.struct (.ofList [
    fld b!"CreatedBefore" time_Time [(b!"sql", [b!"u.created_at <"])]])),
    fld b!"Result" c_UserIterator]

/-- internal/testdata/generator/delete/result_iterator_out.go -/
def delete_result_iterator : Golden :=
  { dir := b!"delete"
    file := b!"result_iterator"
    targets := [(b!"DeleteWithResultIteratorQuery", delete_result_iterator_0)]
    want := [
      b!"// DO NOT EDIT. This file was generated by \"github.com/frk/gosql\".",
      b!"",
      b!"package testdata",
      b!"",
      b!"import (",
      b!"\t\"github.com/frk/gosql\"",
      b!"\t\"github.com/frk/gosql/internal/testdata/common\"",
      b!")",
      b!"",
      b!"func (q *DeleteWithResultIteratorQuery) Exec(c gosql.Conn) error {",
      b!"\tconst queryString = `DELETE FROM \"test_user\" AS u",
      b!"\tWHERE u.\"created_at\" < $1",
      b!"\tRETURNING",
      b!"\tu.\"id\"",
      b!"\t, u.\"email\"",
      b!"\t, u.\"full_name\"",
      b!"\t, u.\"created_at\"` // `",
      b!"",
      b!"\trows, err := c.Query(queryString, q.Where.CreatedBefore)",
      b!"\tif err != nil {",
      b!"\t\treturn err",
      b!"\t}",
      b!"\tdefer rows.Close()",
      b!"",
      b!"\tfor rows.Next() {",
      b!"\t\tv := new(common.User)",
      b!"\t\terr := rows.Scan(",
      b!"\t\t\t&v.Id,",
      b!"\t\t\t&v.Email,",
      b!"\t\t\t&v.FullName,",
      b!"\t\t\t&v.CreatedAt,",
      b!"\t\t)",
      b!"\t\tif err != nil {",
      b!"\t\t\treturn err",
      b!"\t\t}",
      b!"",
      b!"\t\tif err := q.Result.NextUser(v); err != nil {",
      b!"\t\t\treturn err",
      b!"\t\t}",
      b!"\t}",
      b!"\treturn rows.Err()",
      b!"}",
      b!""] }

/-- internal/testdata/generator/delete/result_single_afterscan_in.go:8 -/
def delete_result_single_afterscan_0 : List (FieldHdr × Ty) := [
    low b!"_" g_Relation [(b!"rel", [b!"test_user:u"])],
    fld b!"Where" (.struct (.ofList [
    fld b!"Id" (.basic .int b!"int") [(b!"sql", [b!"u.id"])]])),
    fld b!"Result" (.ptr c_User2)]

/-- internal/testdata/generator/delete/result_single_afterscan_out.go -/
def delete_result_single_afterscan : Golden :=
  { dir := b!"delete"
    file := b!"result_single_afterscan"
    targets := [(b!"DeleteWithResultSingleAfterScanQuery", delete_result_single_afterscan_0)]
    want := [
      b!"// DO NOT EDIT. This file was generated by \"github.com/frk/gosql\".",
      b!"",
      b!"package testdata",
      b!"",
      b!"import (",
      b!"\t\"github.com/frk/gosql\"",
      b!"\t\"github.com/frk/gosql/internal/testdata/common\"",
      b!")",
      b!"",
      b!"func (q *DeleteWithResultSingleAfterScanQuery) Exec(c gosql.Conn) error {",
      b!"\tconst queryString = `DELETE FROM \"test_user\" AS u",
      b!"\tWHERE u.\"id\" = $1",
      b!"\tRETURNING",
      b!"\tu.\"id\"",
      b!"\t, u.\"email\"",
      b!"\t, u.\"full_name\"",
      b!"\t, u.\"created_at\"` // `",
      b!"",
      b!"\trow := c.QueryRow(queryString, q.Where.Id)",
      b!"",
      b!"\tq.Result = new(common.User2)",
      b!"\terr := row.Scan(",
      b!"\t\t&q.Result.Id,",
      b!"\t\t&q.Result.Email,",
      b!"\t\t&q.Result.FullName,",
      b!"\t\t&q.Result.CreatedAt,",
      b!"\t)",
      b!"\tif err != nil {",
      b!"\t\treturn err",
      b!"\t}",
      b!"",
      b!"\tq.Result.AfterScan()",
      b!"\treturn nil",
      b!"}",
      b!""] }

/-- internal/testdata/generator/delete/result_single_errorhandler_in.go:8 -/
def delete_result_single_errorhandler_0 : List (FieldHdr × Ty) := [
    low b!"_" g_Relation [(b!"rel", [b!"test_user:u"])],
    fld b!"Where" (.struct (.ofList [
    fld b!"Id" (.basic .int b!"int") [(b!"sql", [b!"u.id"])]])),
    fld b!"Result" (.ptr c_User),
    low b!"eh" c_ErrorHandler]

/-- internal/testdata/generator/delete/result_single_errorhandler_out.go -/
def delete_result_single_errorhandler : Golden :=
  { dir := b!"delete"
    file := b!"result_single_errorhandler"
    targets := [(b!"DeleteWithResultSingleErrorHandlerQuery", delete_result_single_errorhandler_0)]
    want := [
      b!"// DO NOT EDIT. This file was generated by \"github.com/frk/gosql\".",
      b!"",
      b!"package testdata",
      b!"",
      b!"import (",
      b!"\t\"github.com/frk/gosql\"",
      b!"\t\"github.com/frk/gosql/internal/testdata/common\"",
      b!")",
      b!"",
      b!"func (q *DeleteWithResultSingleErrorHandlerQuery) Exec(c gosql.Conn) error {",
      b!"\tconst queryString = `DELETE FROM \"test_user\" AS u",
      b!"\tWHERE u.\"id\" = $1",
      b!"\tRETURNING",
      b!"\tu.\"id\"",
      b!"\t, u.\"email\"",
      b!"\t, u.\"full_name\"",
      b!"\t, u.\"created_at\"` // `",
      b!"",
      b!"\trow := c.QueryRow(queryString, q.Where.Id)",
      b!"",
      b!"\tq.Result = new(common.User)",
      b!"\treturn q.eh.HandleError(row.Scan(",
      b!"\t\t&q.Result.Id,",
      b!"\t\t&q.Result.Email,",
      b!"\t\t&q.Result.FullName,",
      b!"\t\t&q.Result.CreatedAt,",
      b!"\t))",
      b!"}",
      b!""] }

/-- internal/testdata/generator/delete/result_single_errorinfohandler_in.go:8 -/
def delete_result_single_errorinfohandler_0 : List (FieldHdr × Ty) := [
    low b!"_" g_Relation [(b!"rel", [b!"test_user:u"])],
    fld b!"Where" (.struct (.ofList [
    fld b!"Id" (.basic .int b!"int") [(b!"sql", [b!"u.id"])]])),
    fld b!"Result" (.ptr c_User),
    low b!"eh" c_ErrorInfoHandler]

/-- internal/testdata/generator/delete/result_single_errorinfohandler_out.go -/
def delete_result_single_errorinfohandler : Golden :=
  { dir := b!"delete"
    file := b!"result_single_errorinfohandler"
    targets := [(b!"DeleteWithResultSingleErrorInfoHandlerQuery", delete_result_single_errorinfohandler_0)]
    want := [
      b!"// DO NOT EDIT. This file was generated by \"github.com/frk/gosql\".",
      b!"",
      b!"package testdata",
      b!"",
      b!"import (",
      b!"\t\"github.com/frk/gosql\"",
      b!"\t\"github.com/frk/gosql/internal/testdata/common\"",
      b!")",
      b!"",
      b!"func (q *DeleteWithResultSingleErrorInfoHandlerQuery) Exec(c gosql.Conn) error {",
      b!"\tconst queryString = `DELETE FROM \"test_user\" AS u",
      b!"\tWHERE u.\"id\" = $1",
      b!"\tRETURNING",
      b!"\tu.\"id\"",
      b!"\t, u.\"email\"",
      b!"\t, u.\"full_name\"",
      b!"\t, u.\"created_at\"` // `",
      b!"",
      b!"\trow := c.QueryRow(queryString, q.Where.Id)",
      b!"",
      b!"\tq.Result = new(common.User)",
      b!"\terr := row.Scan(",
      b!"\t\t&q.Result.Id,",
      b!"\t\t&q.Result.Email,",
      b!"\t\t&q.Result.FullName,",
      b!"\t\t&q.Result.CreatedAt,",
      b!"\t)",
      b!"\tif err != nil {",
      b!"\t\treturn q.eh.HandleErrorInfo(&gosql.ErrorInfo{Error: err, QueryString: queryString, QueryKind: \"Delete\", QueryName: \"DeleteWithResultSingleErrorInfoHandlerQuery\", QueryValue: q})",
      b!"\t}",
      b!"\treturn nil",
      b!"}",
      b!""] }

/-- internal/testdata/generator/delete/result_single_in.go:8 -/
def delete_result_single_0 : List (FieldHdr × Ty) := [
    low b!"_" g_Relation [(b!"rel", [b!"test_user:u"])],
    fld b!"Where" (.struct (.ofList [
    fld b!"Id" (.basic .int b!"int") [(b!"sql", [b!"u.id"])]])),
    fld b!"Result" (.ptr c_User)]

/-- internal/testdata/generator/delete/result_single_out.go -/
def delete_result_single : Golden :=
  { dir := b!"delete"
    file := b!"result_single"
    targets := [(b!"DeleteWithResultSingleQuery", delete_result_single_0)]
    want := [
      b!"// DO NOT EDIT. This file was generated by \"github.com/frk/gosql\".",
      b!"",
      b!"package testdata",
      b!"",
      b!"import (",
      b!"\t\"github.com/frk/gosql\"",
      b!"\t\"github.com/frk/gosql/internal/testdata/common\"",
      b!")",
      b!"",
      b!"func (q *DeleteWithResultSingleQuery) Exec(c gosql.Conn) error {",
      b!"\tconst queryString = `DELETE FROM \"test_user\" AS u",
      b!"\tWHERE u.\"id\" = $1",
      b!"\tRETURNING",
      b!"\tu.\"id\"",
      b!"\t, u.\"email\"",
      b!"\t, u.\"full_name\"",
      b!"\t, u.\"created_at\"` // `",
      b!"",
      b!"\trow := c.QueryRow(queryString, q.Where.Id)",
      b!"",
      b!"\tq.Result = new(common.User)",
      b!"\treturn row.Scan(",
      b!"\t\t&q.Result.Id,",
      b!"\t\t&q.Result.Email,",
      b!"\t\t&q.Result.FullName,",
      b!"\t\t&q.Result.CreatedAt,",
      b!"\t)",
      b!"}",
      b!""] }

/-- internal/testdata/generator/delete/result_slice_afterscan_in.go:10 -/
def delete_result_slice_afterscan_0 : List (FieldHdr × Ty) := [
    low b!"_" g_Relation [(b!"rel", [b!"test_user:u"])],
    fld b!"Where" (.struct (.ofList [
    fld b!"CreatedBefore" time_Time [(b!"sql", [b!"u.created_at <"])]])),
    fld b!"Result" (.slice (.ptr c_User2))]

/-- internal/testdata/generator/delete/result_slice_afterscan_out.go -/
def delete_result_slice_afterscan : Golden :=
  { dir := b!"delete"
    file := b!"result_slice_afterscan"
    targets := [(b!"DeleteWithResultSliceAfterScanQuery", delete_result_slice_afterscan_0)]
    want := [
      b!"// DO NOT EDIT. This file was generated by \"github.com/frk/gosql\".",
      b!"",
      b!"package testdata",
      b!"",
      b!"import (",
      b!"\t\"github.com/frk/gosql\"",
      b!"\t\"github.com/frk/gosql/internal/testdata/common\"",
      b!")",
      b!"",
      b!"func (q *DeleteWithResultSliceAfterScanQuery) Exec(c gosql.Conn) error {",
      b!"\tconst queryString = `DELETE FROM \"test_user\" AS u",
      b!"\tWHERE u.\"created_at\" < $1",
      b!"\tRETURNING",
      b!"\tu.\"id\"",
      b!"\t, u.\"email\"",
      b!"\t, u.\"full_name\"",
      b!"\t, u.\"created_at\"` // `",
      b!"",
      b!"\trows, err := c.Query(queryString, q.Where.CreatedBefore)",
      b!"\tif err != nil {",
      b!"\t\treturn err",
      b!"\t}",
      b!"\tdefer rows.Close()",
      b!"",
      b!"\tfor rows.Next() {",
      b!"\t\tv := new(common.User2)",
      b!"\t\terr := rows.Scan(",
      b!"\t\t\t&v.Id,",
      b!"\t\t\t&v.Email,",
      b!"\t\t\t&v.FullName,",
      b!"\t\t\t&v.CreatedAt,",
      b!"\t\t)",
      b!"\t\tif err != nil {",
      b!"\t\t\treturn err",
      b!"\t\t}",
      b!"",
      b!"\t\tv.AfterScan()",
      b!"\t\tq.Result = append(q.Result, v)",
      b!"\t}",
      b!"\treturn rows.Err()",
      b!"}",
      b!""] }

/-- internal/testdata/generator/delete/result_slice_in.go:10 -/
def delete_result_slice_0 : List (FieldHdr × Ty) := [
    low b!"_" g_Relation [(b!"rel", [b!"test_user:u"])],
    fld b!"Where" (.struct (.ofList [
    fld b!"CreatedBefore" time_Time [(b!"sql", [b!"u.created_at <"])]])),
    fld b!"Result" (.slice (.ptr c_User))]

/-- internal/testdata/generator/delete/result_slice_out.go -/
def delete_result_slice : Golden :=
  { dir := b!"delete"
    file := b!"result_slice"
    targets := [(b!"DeleteWithResultSliceQuery", delete_result_slice_0)]
    want := [
      b!"// DO NOT EDIT. This file was generated by \"github.com/frk/gosql\".",
      b!"",
      b!"package testdata",
      b!"",
      b!"import (",
      b!"\t\"github.com/frk/gosql\"",
      b!"\t\"github.com/frk/gosql/internal/testdata/common\"",
      b!")",
      b!"",
      b!"func (q *DeleteWithResultSliceQuery) Exec(c gosql.Conn) error {",
      b!"\tconst queryString = `DELETE FROM \"test_user\" AS u",
      b!"\tWHERE u.\"created_at\" < $1",
      b!"\tRETURNING",
      b!"\tu.\"id\"",
      b!"\t, u.\"email\"",
      b!"\t, u.\"full_name\"",
      b!"\t, u.\"created_at\"` // `",
      b!"",
      b!"\trows, err := c.Query(queryString, q.Where.CreatedBefore)",
      b!"\tif err != nil {",
      b!"\t\treturn err",
      b!"\t}",
      b!"\tdefer rows.Close()",
      b!"",
      b!"\tfor rows.Next() {",
      b!"\t\tv := new(common.User)",
      b!"\t\terr := rows.Scan(",
      b!"\t\t\t&v.Id,",
      b!"\t\t\t&v.Email,",
      b!"\t\t\t&v.FullName,",
      b!"\t\t\t&v.CreatedAt,",
      b!"\t\t)",
      b!"\t\tif err != nil {",
      b!"\t\t\treturn err",
      b!"\t\t}",
      b!"",
      b!"\t\tq.Result = append(q.Result, v)",
      b!"\t}",
      b!"\treturn rows.Err()",
      b!"}",
      b!""] }

/-- internal/testdata/generator/delete/returning_iterator_afterscan_in.go:10 -/
def delete_returning_iterator_afterscan_0 : List (FieldHdr × Ty) := [
    fld b!"Iter" c_User2Iterator [(b!"rel", [b!"test_user:u"])],
    fld b!"Where" (.struct (.ofList [
    fld b!"CreatedBefore" time_Time [(b!"sql", [b!"u.created_at <"])]])),
    low b!"_" g_Return [(b!"sql", [b!"*"])]]

/-- internal/testdata/generator/delete/returning_iterator_afterscan_out.go -/
def delete_returning_iterator_afterscan : Golden :=
  { dir := b!"delete"
    file := b!"returning_iterator_afterscan"
    targets := [(b!"DeleteWithReturningIteratorAfterScanQuery", delete_returning_iterator_afterscan_0)]
    want := [
      b!"// DO NOT EDIT. This file was generated by \"github.com/frk/gosql\".",
      b!"",
      b!"package testdata",
      b!"",
      b!"import (",
      b!"\t\"github.com/frk/gosql\"",
      b!"\t\"github.com/frk/gosql/internal/testdata/common\"",
      b!")",
      b!"",
      b!"func (q *DeleteWithReturningIteratorAfterScanQuery) Exec(c gosql.Conn) error {",
      b!"\tconst queryString = `DELETE FROM \"test_user\" AS u",
      b!"\tWHERE u.\"created_at\" < $1",
      b!"\tRETURNING",
      b!"\tu.\"id\"",
      b!"\t, u.\"email\"",
      b!"\t, u.\"full_name\"",
      b!"\t, u.\"created_at\"` // `",
      b!"",
      b!"\trows, err := c.Query(queryString, q.Where.CreatedBefore)",
      b!"\tif err != nil {",
      b!"\t\treturn err",
      b!"\t}",
      b!"\tdefer rows.Close()",
      b!"",
      b!"\tfor rows.Next() {",
      b!"\t\tv := new(common.User2)",
      b!"\t\terr := rows.Scan(",
      b!"\t\t\t&v.Id,",
      b!"\t\t\t&v.Email,",
      b!"\t\t\t&v.FullName,",
      b!"\t\t\t&v.CreatedAt,",
      b!"\t\t)",
      b!"\t\tif err != nil {",
      b!"\t\t\treturn err",
      b!"\t\t}",
      b!"",
      b!"\t\tv.AfterScan()",
      b!"\t\tif err := q.Iter.NextUser(v); err != nil {",
      b!"\t\t\treturn err",
      b!"\t\t}",
      b!"\t}",
      b!"\treturn rows.Err()",
      b!"}",
      b!""] }

/-- internal/testdata/generator/delete/returning_iterator_in.go:10 -/
def delete_returning_iterator_0 : List (FieldHdr × Ty) := [
    fld b!"Iter" c_UserIterator [(b!"rel", [b!"test_user:u"])],
    fld b!"Where" (.struct (.ofList [
    fld b!"CreatedBefore" time_Time [(b!"sql", [b!"u.created_at <"])]])),
    low b!"_" g_Return [(b!"sql", [b!"*"])]]

/-- internal/testdata/generator/delete/returning_iterator_out.go -/
def delete_returning_iterator : Golden :=
  { dir := b!"delete"
    file := b!"returning_iterator"
    targets := [(b!"DeleteWithReturningIteratorQuery", delete_returning_iterator_0)]
    want := [
      b!"// DO NOT EDIT. This file was generated by \"github.com/frk/gosql\".",
      b!"",
      b!"package testdata",
      b!"",
      b!"import (",
      b!"\t\"github.com/frk/gosql\"",
      b!"\t\"github.com/frk/gosql/internal/testdata/common\"",
      b!")",
      b!"",
      b!"func (q *DeleteWithReturningIteratorQuery) Exec(c gosql.Conn) error {",
      b!"\tconst queryString = `DELETE FROM \"test_user\" AS u",
      b!"\tWHERE u.\"created_at\" < $1",
      b!"\tRETURNING",
      b!"\tu.\"id\"",
      b!"\t, u.\"email\"",
      b!"\t, u.\"full_name\"",
      b!"\t, u.\"created_at\"` // `",
      b!"",
      b!"\trows, err := c.Query(queryString, q.Where.CreatedBefore)",
      b!"\tif err != nil {",
      b!"\t\treturn err",
      b!"\t}",
      b!"\tdefer rows.Close()",
      b!"",
      b!"\tfor rows.Next() {",
      b!"\t\tv := new(common.User)",
      b!"\t\terr := rows.Scan(",
      b!"\t\t\t&v.Id,",
      b!"\t\t\t&v.Email,",
      b!"\t\t\t&v.FullName,",
      b!"\t\t\t&v.CreatedAt,",
      b!"\t\t)",
      b!"\t\tif err != nil {",
      b!"\t\t\treturn err",
      b!"\t\t}",
      b!"",
      b!"\t\tif err := q.Iter.NextUser(v); err != nil {",
      b!"\t\t\treturn err",
      b!"\t\t}",
      b!"\t}",
      b!"\treturn rows.Err()",
      b!"}",
      b!""] }

/-- internal/testdata/generator/delete/returning_single_afterscan_in.go:8 -/
def delete_returning_single_afterscan_0 : List (FieldHdr × Ty) := [
    fld b!"User" (.ptr c_User2) [(b!"rel", [b!"test_user:u"])],
    fld b!"Where" (.struct (.ofList [
    fld b!"Id" (.basic .int b!"int") [(b!"sql", [b!"u.id"])]])),
    low b!"_" g_Return [(b!"sql", [b!"*"])]]

/-- internal/testdata/generator/delete/returning_single_afterscan_out.go -/
def delete_returning_single_afterscan : Golden :=
  { dir := b!"delete"
    file := b!"returning_single_afterscan"
    targets := [(b!"DeleteWithReturningSingleAfterScanQuery", delete_returning_single_afterscan_0)]
    want := [
      b!"// DO NOT EDIT. This file was generated by \"github.com/frk/gosql\".",
      b!"",
      b!"package testdata",
      b!"",
      b!"import (",
      b!"\t\"github.com/frk/gosql\"",
      b!"\t\"github.com/frk/gosql/internal/testdata/common\"",
      b!")",
      b!"",
      b!"func (q *DeleteWithReturningSingleAfterScanQuery) Exec(c gosql.Conn) error {",
      b!"\tconst queryString = `DELETE FROM \"test_user\" AS u",
      b!"\tWHERE u.\"id\" = $1",
      b!"\tRETURNING",
      b!"\tu.\"id\"",
      b!"\t, u.\"email\"",
      b!"\t, u.\"full_name\"",
      b!"\t, u.\"created_at\"` // `",
      b!"",
      b!"\trow := c.QueryRow(queryString, q.Where.Id)",
      b!"",
      b!"\tq.User = new(common.User2)",
      b!"\terr := row.Scan(",
      b!"\t\t&q.User.Id,",
      b!"\t\t&q.User.Email,",
      b!"\t\t&q.User.FullName,",
      b!"\t\t&q.User.CreatedAt,",
      b!"\t)",
      b!"\tif err != nil {",
      b!"\t\treturn err",
      b!"\t}",
      b!"",
      b!"\tq.User.AfterScan()",
      b!"\treturn nil",
      b!"}",
      b!""] }

/-- internal/testdata/generator/delete/returning_single_all_in.go:8 -/
def delete_returning_single_all_0 : List (FieldHdr × Ty) := [
    fld b!"User" (.ptr c_User) [(b!"rel", [b!"test_user:u"])],
    fld b!"Where" (.struct (.ofList [
    fld b!"Id" (.basic .int b!"int") [(b!"sql", [b!"u.id"])]])),
    low b!"_" g_Return [(b!"sql", [b!"*"])]]

/-- internal/testdata/generator/delete/returning_single_all_out.go -/
def delete_returning_single_all : Golden :=
  { dir := b!"delete"
    file := b!"returning_single_all"
    targets := [(b!"DeleteWithReturningSingleAllQuery", delete_returning_single_all_0)]
    want := [
      b!"// DO NOT EDIT. This file was generated by \"github.com/frk/gosql\".",
      b!"",
      b!"package testdata",
      b!"",
      b!"import (",
      b!"\t\"github.com/frk/gosql\"",
      b!"\t\"github.com/frk/gosql/internal/testdata/common\"",
      b!")",
      b!"",
      b!"func (q *DeleteWithReturningSingleAllQuery) Exec(c gosql.Conn) error {",
      b!"\tconst queryString = `DELETE FROM \"test_user\" AS u",
      b!"\tWHERE u.\"id\" = $1",
      b!"\tRETURNING",
      b!"\tu.\"id\"",
      b!"\t, u.\"email\"",
      b!"\t, u.\"full_name\"",
      b!"\t, u.\"created_at\"` // `",
      b!"",
      b!"\trow := c.QueryRow(queryString, q.Where.Id)",
      b!"",
      b!"\tq.User = new(common.User)",
      b!"\treturn row.Scan(",
      b!"\t\t&q.User.Id,",
      b!"\t\t&q.User.Email,",
      b!"\t\t&q.User.FullName,",
      b!"\t\t&q.User.CreatedAt,",
      b!"\t)",
      b!"}",
      b!""] }

/-- internal/testdata/generator/delete/returning_single_collist_in.go:7 -/
def delete_returning_single_collist_0 : List (FieldHdr × Ty) := [
    fld b!"User" (.struct (.ofList [
    fld b!"Email" (.basic .string b!"string") [(b!"sql", [b!"email"])],
    fld b!"FullName" (.basic .string b!"string") [(b!"sql", [b!"full_name"])]])) [(b!"rel", [b!"test_user:u"])],
    fld b!"Where" (.struct (.ofList [
    fld b!"Id" (.basic .int b!"int") [(b!"sql", [b!"u.id"])]])),
    low b!"_" g_Return [(b!"sql", [b!"u.email", b!"u.full_name"])]]

/-- internal/testdata/generator/delete/returning_single_collist_out.go -/
def delete_returning_single_collist : Golden :=
  { dir := b!"delete"
    file := b!"returning_single_collist"
    targets := [(b!"DeleteWithReturningSingleCollistQuery", delete_returning_single_collist_0)]
    want := [
      b!"// DO NOT EDIT. This file was generated by \"github.com/frk/gosql\".",
      b!"",
      b!"package testdata",
      b!"",
      b!"import (",
      b!"\t\"github.com/frk/gosql\"",
      b!")",
      b!"",
      b!"func (q *DeleteWithReturningSingleCollistQuery) Exec(c gosql.Conn) error {",
      b!"\tconst queryString = `DELETE FROM \"test_user\" AS u",
      b!"\tWHERE u.\"id\" = $1",
      b!"\tRETURNING u.\"email\", u.\"full_name\"` // `",
      b!"",
      b!"\trow := c.QueryRow(queryString, q.Where.Id)",
      b!"\treturn row.Scan(&q.User.Email, &q.User.FullName)",
      b!"}",
      b!""] }

/-- internal/testdata/generator/delete/returning_slice_all_in.go:10 -/
def delete_returning_slice_all_0 : List (FieldHdr × Ty) := [
    fld b!"Users" (.slice (.ptr c_User)) [(b!"rel", [b!"test_user:u"])],
    fld b!"Where" (.struct (.ofList [
    fld b!"CreatedBefore" time_Time [(b!"sql", [b!"u.created_at <"])]])),
    low b!"_" g_Return [(b!"sql", [b!"*"])]]

/-- internal/testdata/generator/delete/returning_slice_all_out.go -/
def delete_returning_slice_all : Golden :=
  { dir := b!"delete"
    file := b!"returning_slice_all"
    targets := [(b!"DeleteWithReturningSliceAllQuery", delete_returning_slice_all_0)]
    want := [
      b!"// DO NOT EDIT. This file was generated by \"github.com/frk/gosql\".",
      b!"",
      b!"package testdata",
      b!"",
      b!"import (",
      b!"\t\"github.com/frk/gosql\"",
      b!"\t\"github.com/frk/gosql/internal/testdata/common\"",
      b!")",
      b!"",
      b!"func (q *DeleteWithReturningSliceAllQuery) Exec(c gosql.Conn) error {",
      b!"\tconst queryString = `DELETE FROM \"test_user\" AS u",
      b!"\tWHERE u.\"created_at\" < $1",
      b!"\tRETURNING",
      b!"\tu.\"id\"",
      b!"\t, u.\"email\"",
      b!"\t, u.\"full_name\"",
      b!"\t, u.\"created_at\"` // `",
      b!"",
      b!"\trows, err := c.Query(queryString, q.Where.CreatedBefore)",
      b!"\tif err != nil {",
      b!"\t\treturn err",
      b!"\t}",
      b!"\tdefer rows.Close()",
      b!"",
      b!"\tfor rows.Next() {",
      b!"\t\tv := new(common.User)",
      b!"\t\terr := rows.Scan(",
      b!"\t\t\t&v.Id,",
      b!"\t\t\t&v.Email,",
      b!"\t\t\t&v.FullName,",
      b!"\t\t\t&v.CreatedAt,",
      b!"\t\t)",
      b!"\t\tif err != nil {",
      b!"\t\t\treturn err",
      b!"\t\t}",
      b!"",
      b!"\t\tq.Users = append(q.Users, v)",
      b!"\t}",
      b!"\treturn rows.Err()",
      b!"}",
      b!""] }

/-- internal/testdata/generator/delete/returning_slice_afterscan_in.go:10 -/
def delete_returning_slice_afterscan_0 : List (FieldHdr × Ty) := [
    fld b!"Users" (.slice (.ptr c_User2)) [(b!"rel", [b!"test_user:u"])],
    fld b!"Where" (.struct (.ofList [
    fld b!"CreatedBefore" time_Time [(b!"sql", [b!"u.created_at <"])]])),
    low b!"_" g_Return [(b!"sql", [b!"*"])]]

/-- internal/testdata/generator/delete/returning_slice_afterscan_out.go -/
def delete_returning_slice_afterscan : Golden :=
  { dir := b!"delete"
    file := b!"returning_slice_afterscan"
    targets := [(b!"DeleteWithReturningSliceAfterScanQuery", delete_returning_slice_afterscan_0)]
    want := [
      b!"// DO NOT EDIT. This file was generated by \"github.com/frk/gosql\".",
      b!"",
      b!"package testdata",
      b!"",
      b!"import (",
      b!"\t\"github.com/frk/gosql\"",
      b!"\t\"github.com/frk/gosql/internal/testdata/common\"",
      b!")",
      b!"",
      b!"func (q *DeleteWithReturningSliceAfterScanQuery) Exec(c gosql.Conn) error {",
      b!"\tconst queryString = `DELETE FROM \"test_user\" AS u",
      b!"\tWHERE u.\"created_at\" < $1",
      b!"\tRETURNING",
      b!"\tu.\"id\"",
      b!"\t, u.\"email\"",
      b!"\t, u.\"full_name\"",
      b!"\t, u.\"created_at\"` // `",
      b!"",
      b!"\trows, err := c.Query(queryString, q.Where.CreatedBefore)",
      b!"\tif err != nil {",
      b!"\t\treturn err",
      b!"\t}",
      b!"\tdefer rows.Close()",
      b!"",
      b!"\tfor rows.Next() {",
      b!"\t\tv := new(common.User2)",
      b!"\t\terr := rows.Scan(",
      b!"\t\t\t&v.Id,",
      b!"\t\t\t&v.Email,",
      b!"\t\t\t&v.FullName,",
      b!"\t\t\t&v.CreatedAt,",
      b!"\t\t)",
      b!"\t\tif err != nil {",
      b!"\t\t\treturn err",
      b!"\t\t}",
      b!"",
      b!"\t\tv.AfterScan()",
      b!"\t\tq.Users = append(q.Users, v)",
      b!"\t}",
      b!"\treturn rows.Err()",
      b!"}",
      b!""] }

/-- internal/testdata/generator/delete/returning_slice_collist_in.go:10 -/
def delete_returning_slice_collist_0 : List (FieldHdr × Ty) := [
    fld b!"Users" (.slice c_User) [(b!"rel", [b!"test_user:u"])],
    fld b!"Where" (.struct (.ofList [
    fld b!"CreatedBefore" time_Time [(b!"sql", [b!"u.created_at <"])]])),
    low b!"_" g_Return [(b!"sql", [b!"u.email", b!"u.full_name"])]]

/-- internal/testdata/generator/delete/returning_slice_collist_out.go -/
def delete_returning_slice_collist : Golden :=
  { dir := b!"delete"
    file := b!"returning_slice_collist"
    targets := [(b!"DeleteWithReturningSliceCollistQuery", delete_returning_slice_collist_0)]
    want := [
      b!"// DO NOT EDIT. This file was generated by \"github.com/frk/gosql\".",
      b!"",
      b!"package testdata",
      b!"",
      b!"import (",
      b!"\t\"github.com/frk/gosql\"",
      b!"\t\"github.com/frk/gosql/internal/testdata/common\"",
      b!")",
      b!"",
      b!"func (q *DeleteWithReturningSliceCollistQuery) Exec(c gosql.Conn) error {",
      b!"\tconst queryString = `DELETE FROM \"test_user\" AS u",
      b!"\tWHERE u.\"created_at\" < $1",
      b!"\tRETURNING u.\"email\", u.\"full_name\"` // `",
      b!"",
      b!"\trows, err := c.Query(queryString, q.Where.CreatedBefore)",
      b!"\tif err != nil {",
      b!"\t\treturn err",
      b!"\t}",
      b!"\tdefer rows.Close()",
      b!"",
      b!"\tfor rows.Next() {",
      b!"\t\tvar v common.User",
      b!"\t\terr := rows.Scan(&v.Email, &v.FullName)",
      b!"\t\tif err != nil {",
      b!"\t\t\treturn err",
      b!"\t\t}",
      b!"",
      b!"\t\tq.Users = append(q.Users, v)",
      b!"\t}",
      b!"\treturn rows.Err()",
      b!"}",
      b!""] }

/-- internal/testdata/generator/delete/returning_slice_context_in.go:11 -/
def delete_returning_slice_context_0 : List (FieldHdr × Ty) := [
    emb b!"Context" context_Context,
    fld b!"Users" (.slice (.ptr c_User)) [(b!"rel", [b!"test_user:u"])],
    fld b!"Where" (.struct (.ofList [
    fld b!"CreatedBefore" time_Time [(b!"sql", [b!"u.created_at <"])]])),
    low b!"_" g_Return [(b!"sql", [b!"*"])]]

/-- internal/testdata/generator/delete/returning_slice_context_out.go -/
def delete_returning_slice_context : Golden :=
  { dir := b!"delete"
    file := b!"returning_slice_context"
    targets := [(b!"DeleteWithReturningSliceContextQuery", delete_returning_slice_context_0)]
    want := [
      b!"// DO NOT EDIT. This file was generated by \"github.com/frk/gosql\".",
      b!"",
      b!"package testdata",
      b!"",
      b!"import (",
      b!"\t\"github.com/frk/gosql\"",
      b!"\t\"github.com/frk/gosql/internal/testdata/common\"",
      b!")",
      b!"",
      b!"func (q *DeleteWithReturningSliceContextQuery) Exec(c gosql.Conn) error {",
      b!"\tconst queryString = `DELETE FROM \"test_user\" AS u",
      b!"\tWHERE u.\"created_at\" < $1",
      b!"\tRETURNING",
      b!"\tu.\"id\"",
      b!"\t, u.\"email\"",
      b!"\t, u.\"full_name\"",
      b!"\t, u.\"created_at\"` // `",
      b!"",
      b!"\trows, err := c.QueryContext(q.Context, queryString, q.Where.CreatedBefore)",
      b!"\tif err != nil {",
      b!"\t\treturn err",
      b!"\t}",
      b!"\tdefer rows.Close()",
      b!"",
      b!"\tfor rows.Next() {",
      b!"\t\tv := new(common.User)",
      b!"\t\terr := rows.Scan(",
      b!"\t\t\t&v.Id,",
      b!"\t\t\t&v.Email,",
      b!"\t\t\t&v.FullName,",
      b!"\t\t\t&v.CreatedAt,",
      b!"\t\t)",
      b!"\t\tif err != nil {",
      b!"\t\t\treturn err",
      b!"\t\t}",
      b!"",
      b!"\t\tq.Users = append(q.Users, v)",
      b!"\t}",
      b!"\treturn rows.Err()",
      b!"}",
      b!""] }

/-- internal/testdata/generator/delete/returning_slice_errorhandler_in.go:10 -/
def delete_returning_slice_errorhandler_0 : List (FieldHdr × Ty) := [
    fld b!"Users" (.slice (.ptr c_User)) [(b!"rel", [b!"test_user:u"])],
    fld b!"Where" (.struct (.ofList [
    fld b!"CreatedBefore" time_Time [(b!"sql", [b!"u.created_at <"])]])),
    low b!"_" g_Return [(b!"sql", [b!"*"])],
    low b!"eh" c_ErrorHandler]

/-- internal/testdata/generator/delete/returning_slice_errorhandler_out.go -/
def delete_returning_slice_errorhandler : Golden :=
  { dir := b!"delete"
    file := b!"returning_slice_errorhandler"
    targets := [(b!"DeleteWithReturningSliceErrorHandlerQuery", delete_returning_slice_errorhandler_0)]
    want := [
      b!"// DO NOT EDIT. This file was generated by \"github.com/frk/gosql\".",
      b!"",
      b!"package testdata",
      b!"",
      b!"import (",
      b!"\t\"github.com/frk/gosql\"",
      b!"\t\"github.com/frk/gosql/internal/testdata/common\"",
      b!")",
      b!"",
      b!"func (q *DeleteWithReturningSliceErrorHandlerQuery) Exec(c gosql.Conn) error {",
      b!"\tconst queryString = `DELETE FROM \"test_user\" AS u",
      b!"\tWHERE u.\"created_at\" < $1",
      b!"\tRETURNING",
      b!"\tu.\"id\"",
      b!"\t, u.\"email\"",
      b!"\t, u.\"full_name\"",
      b!"\t, u.\"created_at\"` // `",
      b!"",
      b!"\trows, err := c.Query(queryString, q.Where.CreatedBefore)",
      b!"\tif err != nil {",
      b!"\t\treturn q.eh.HandleError(err)",
      b!"\t}",
      b!"\tdefer rows.Close()",
      b!"",
      b!"\tfor rows.Next() {",
      b!"\t\tv := new(common.User)",
      b!"\t\terr := rows.Scan(",
      b!"\t\t\t&v.Id,",
      b!"\t\t\t&v.Email,",
      b!"\t\t\t&v.FullName,",
      b!"\t\t\t&v.CreatedAt,",
      b!"\t\t)",
      b!"\t\tif err != nil {",
      b!"\t\t\treturn q.eh.HandleError(err)",
      b!"\t\t}",
      b!"",
      b!"\t\tq.Users = append(q.Users, v)",
      b!"\t}",
      b!"\treturn q.eh.HandleError(rows.Err())",
      b!"}",
      b!""] }

/-- internal/testdata/generator/delete/returning_slice_errorinfohandler_in.go:10 -/
def delete_returning_slice_errorinfohandler_0 : List (FieldHdr × Ty) := [
    fld b!"Users" (.slice (.ptr c_User)) [(b!"rel", [b!"test_user:u"])],
    fld b!"Where" (.struct (.ofList [
    fld b!"CreatedBefore" time_Time [(b!"sql", [b!"u.created_at <"])]])),
    low b!"_" g_Return [(b!"sql", [b!"*"])],
    low b!"eh" c_ErrorInfoHandler]

/-- internal/testdata/generator/delete/returning_slice_errorinfohandler_out.go -/
def delete_returning_slice_errorinfohandler : Golden :=
  { dir := b!"delete"
    file := b!"returning_slice_errorinfohandler"
    targets := [(b!"DeleteWithReturningSliceErrorInfoHandlerQuery", delete_returning_slice_errorinfohandler_0)]
    want := [
      b!"// DO NOT EDIT. This file was generated by \"github.com/frk/gosql\".",
      b!"",
      b!"package testdata",
      b!"",
      b!"import (",
      b!"\t\"github.com/frk/gosql\"",
      b!"\t\"github.com/frk/gosql/internal/testdata/common\"",
      b!")",
      b!"",
      b!"func (q *DeleteWithReturningSliceErrorInfoHandlerQuery) Exec(c gosql.Conn) error {",
      b!"\tconst queryString = `DELETE FROM \"test_user\" AS u",
      b!"\tWHERE u.\"created_at\" < $1",
      b!"\tRETURNING",
      b!"\tu.\"id\"",
      b!"\t, u.\"email\"",
      b!"\t, u.\"full_name\"",
      b!"\t, u.\"created_at\"` // `",
      b!"",
      b!"\trows, err := c.Query(queryString, q.Where.CreatedBefore)",
      b!"\tif err != nil {",
      b!"\t\treturn q.eh.HandleErrorInfo(&gosql.ErrorInfo{Error: err, QueryString: queryString, QueryKind: \"Delete\", QueryName: \"DeleteWithReturningSliceErrorInfoHandlerQuery\", QueryValue: q})",
      b!"\t}",
      b!"\tdefer rows.Close()",
      b!"",
      b!"\tfor rows.Next() {",
      b!"\t\tv := new(common.User)",
      b!"\t\terr := rows.Scan(",
      b!"\t\t\t&v.Id,",
      b!"\t\t\t&v.Email,",
      b!"\t\t\t&v.FullName,",
      b!"\t\t\t&v.CreatedAt,",
      b!"\t\t)",
      b!"\t\tif err != nil {",
      b!"\t\t\treturn q.eh.HandleErrorInfo(&gosql.ErrorInfo{Error: err, QueryString: queryString, QueryKind: \"Delete\", QueryName: \"DeleteWithReturningSliceErrorInfoHandlerQuery\", QueryValue: q})",
      b!"\t\t}",
      b!"",
      b!"\t\tq.Users = append(q.Users, v)",
      b!"\t}",
      b!"\tif err := rows.Err(); err != nil {",
      b!"\t\treturn q.eh.HandleErrorInfo(&gosql.ErrorInfo{Error: err, QueryString: queryString, QueryKind: \"Delete\", QueryName: \"DeleteWithReturningSliceErrorInfoHandlerQuery\", QueryValue: q})",
      b!"\t}",
      b!"\treturn nil",
      b!"}",
      b!""] }

/-- internal/testdata/generator/delete/rowsaffected_in.go:9 -/
def delete_rowsaffected_0 : List (FieldHdr × Ty) := [
    low b!"_" g_Relation [(b!"rel", [b!"test_user:u"])],
    fld b!"Where" (.struct (.ofList [
    fld b!"CreatedBefore" time_Time [(b!"sql", [b!"u.created_at <"])]])),
    fld b!"RowsAffected" (.basic .int b!"int")]

/-- internal/testdata/generator/delete/rowsaffected_out.go -/
def delete_rowsaffected : Golden :=
  { dir := b!"delete"
    file := b!"rowsaffected"
    targets := [(b!"DeleteWithRowsAffectedQuery", delete_rowsaffected_0)]
    want := [
      b!"// DO NOT EDIT. This file was generated by \"github.com/frk/gosql\".",
      b!"",
      b!"package testdata",
      b!"",
      b!"import (",
      b!"\t\"github.com/frk/gosql\"",
      b!")",
      b!"",
      b!"func (q *DeleteWithRowsAffectedQuery) Exec(c gosql.Conn) error {",
      b!"\tconst queryString = `DELETE FROM \"test_user\" AS u",
      b!"\tWHERE u.\"created_at\" < $1` // `",
      b!"",
      b!"\tres, err := c.Exec(queryString, q.Where.CreatedBefore)",
      b!"\tif err != nil {",
      b!"\t\treturn err",
      b!"\t}",
      b!"\ti64, err := res.RowsAffected()",
      b!"\tif err != nil {",
      b!"\t\treturn err",
      b!"\t}",
      b!"",
      b!"\tq.RowsAffected = int(i64)",
      b!"\treturn nil",
      b!"}",
      b!""] }

/-- internal/testdata/generator/delete/rowsaffected_errorhandler_in.go:10 -/
def delete_rowsaffected_errorhandler_0 : List (FieldHdr × Ty) := [
    low b!"_" g_Relation [(b!"rel", [b!"test_user:u"])],
    fld b!"Where" (.struct (.ofList [
    fld b!"CreatedBefore" time_Time [(b!"sql", [b!"u.created_at <"])]])),
    fld b!"RowsAffected" (.basic .int b!"int"),
    emb b!"ErrorHandler" c_ErrorHandler]

/-- internal/testdata/generator/delete/rowsaffected_errorhandler_out.go -/
def delete_rowsaffected_errorhandler : Golden :=
  { dir := b!"delete"
    file := b!"rowsaffected_errorhandler"
    targets := [(b!"DeleteWithRowsAffectedErrorHandlerQuery", delete_rowsaffected_errorhandler_0)]
    want := [
      b!"// DO NOT EDIT. This file was generated by \"github.com/frk/gosql\".",
      b!"",
      b!"package testdata",
      b!"",
      b!"import (",
      b!"\t\"github.com/frk/gosql\"",
      b!")",
      b!"",
      b!"func (q *DeleteWithRowsAffectedErrorHandlerQuery) Exec(c gosql.Conn) error {",
      b!"\tconst queryString = `DELETE FROM \"test_user\" AS u",
      b!"\tWHERE u.\"created_at\" < $1` // `",
      b!"",
      b!"\tres, err := c.Exec(queryString, q.Where.CreatedBefore)",
      b!"\tif err != nil {",
      b!"\t\treturn q.ErrorHandler.HandleError(err)",
      b!"\t}",
      b!"\ti64, err := res.RowsAffected()",
      b!"\tif err != nil {",
      b!"\t\treturn q.ErrorHandler.HandleError(err)",
      b!"\t}",
      b!"",
      b!"\tq.RowsAffected = int(i64)",
      b!"\treturn nil",
      b!"}",
      b!""] }

/-- internal/testdata/generator/delete/rowsaffected_errorinfohandler_in.go:10 -/
def delete_rowsaffected_errorinfohandler_0 : List (FieldHdr × Ty) := [
    low b!"_" g_Relation [(b!"rel", [b!"test_user:u"])],
    fld b!"Where" (.struct (.ofList [
    fld b!"CreatedBefore" time_Time [(b!"sql", [b!"u.created_at <"])]])),
    fld b!"RowsAffected" (.basic .int b!"int"),
    emb b!"ErrorInfoHandler" c_ErrorInfoHandler]

/-- internal/testdata/generator/delete/rowsaffected_errorinfohandler_out.go -/
def delete_rowsaffected_errorinfohandler : Golden :=
  { dir := b!"delete"
    file := b!"rowsaffected_errorinfohandler"
    targets := [(b!"DeleteWithRowsAffectedErrorInfoHandlerQuery", delete_rowsaffected_errorinfohandler_0)]
    want := [
      b!"// DO NOT EDIT. This file was generated by \"github.com/frk/gosql\".",
      b!"",
      b!"package testdata",
      b!"",
      b!"import (",
      b!"\t\"github.com/frk/gosql\"",
      b!")",
      b!"",
      b!"func (q *DeleteWithRowsAffectedErrorInfoHandlerQuery) Exec(c gosql.Conn) error {",
      b!"\tconst queryString = `DELETE FROM \"test_user\" AS u",
      b!"\tWHERE u.\"created_at\" < $1` // `",
      b!"",
      b!"\tres, err := c.Exec(queryString, q.Where.CreatedBefore)",
      b!"\tif err != nil {",
      b!"\t\treturn q.ErrorInfoHandler.HandleErrorInfo(&gosql.ErrorInfo{Error: err, QueryString: queryString, QueryKind: \"Delete\", QueryName: \"DeleteWithRowsAffectedErrorInfoHandlerQuery\", QueryValue: q})",
      b!"\t}",
      b!"\ti64, err := res.RowsAffected()",
      b!"\tif err != nil {",
      b!"\t\treturn q.ErrorInfoHandler.HandleErrorInfo(&gosql.ErrorInfo{Error: err, QueryString: queryString, QueryKind: \"Delete\", QueryName: \"DeleteWithRowsAffectedErrorInfoHandlerQuery\", QueryValue: q})",
      b!"\t}",
      b!"",
      b!"\tq.RowsAffected = int(i64)",
      b!"\treturn nil",
      b!"}",
      b!""] }

/-- internal/testdata/generator/delete/using_join_block_1_in.go:7 -/
def delete_using_join_block_1_0 : List (FieldHdr × Ty) := [
    low b!"_" g_Relation [(b!"rel", [b!"test_user:u"])],
    fld b!"Using" (.struct (.ofList [
    low b!"_" g_Relation [(b!"sql", [b!"test_post:p"])]])),
    fld b!"Where" (.struct (.ofList [
    low b!"_" g_Column [(b!"sql", [b!"u.id=p.user_id"])],
    low b!"_" g_Column [(b!"sql", [b!"p.is_spam"])]]))]

/-- internal/testdata/generator/delete/using_join_block_1_out.go -/
def delete_using_join_block_1 : Golden :=
  { dir := b!"delete"
    file := b!"using_join_block_1"
    targets := [(b!"DeleteWithUsingJoinBlock1Query", delete_using_join_block_1_0)]
    want := [
      b!"// DO NOT EDIT. This file was generated by \"github.com/frk/gosql\".",
      b!"",
      b!"package testdata",
      b!"",
      b!"import (",
      b!"\t\"github.com/frk/gosql\"",
      b!")",
      b!"",
      b!"func (q *DeleteWithUsingJoinBlock1Query) Exec(c gosql.Conn) error {",
      b!"\tconst queryString = `DELETE FROM \"test_user\" AS u",
      b!"\tUSING \"test_post\" AS p",
      b!"\tWHERE u.\"id\" = p.\"user_id\" AND p.\"is_spam\" IS TRUE` // `",
      b!"",
      b!"\t_, err := c.Exec(queryString)",
      b!"\treturn err",
      b!"}",
      b!""] }

/-- internal/testdata/generator/delete/using_join_block_2_in.go:7 -/
def delete_using_join_block_2_0 : List (FieldHdr × Ty) := [
    low b!"_" g_Relation [(b!"rel", [b!"test_user:u"])],
    fld b!"Using" (.struct (.ofList [
    low b!"_" g_Relation [(b!"sql", [b!"test_post:p"])],
    low b!"_" g_LeftJoin [(b!"sql", [b!"test_join1:j1", b!"j1.post_id = p.id"])],
    low b!"_" g_RightJoin [(b!"sql", [b!"test_join2:j2", b!"j2.join1_id = j1.id"])],
    low b!"_" g_FullJoin [(b!"sql", [b!"test_join3:j3", b!"j3.join2_id = j2.id"])],
    low b!"_" g_CrossJoin [(b!"sql", [b!"test_join4:j4"])]])),
    fld b!"Where" (.struct (.ofList [
    low b!"_" g_Column [(b!"sql", [b!"u.id=p.user_id"])],
    low b!"_" g_Column [(b!"sql", [b!"p.is_spam"])]]))]

/-- internal/testdata/generator/delete/using_join_block_2_out.go -/
def delete_using_join_block_2 : Golden :=
  { dir := b!"delete"
    file := b!"using_join_block_2"
    targets := [(b!"DeleteWithUsingJoinBlock2Query", delete_using_join_block_2_0)]
    want := [
      b!"// DO NOT EDIT. This file was generated by \"github.com/frk/gosql\".",
      b!"",
      b!"package testdata",
      b!"",
      b!"import (",
      b!"\t\"github.com/frk/gosql\"",
      b!")",
      b!"",
      b!"func (q *DeleteWithUsingJoinBlock2Query) Exec(c gosql.Conn) error {",
      b!"\tconst queryString = `DELETE FROM \"test_user\" AS u",
      b!"\tUSING \"test_post\" AS p",
      b!"\tLEFT JOIN \"test_join1\" AS j1 ON j1.\"post_id\" = p.\"id\"",
      b!"\tRIGHT JOIN \"test_join2\" AS j2 ON j2.\"join1_id\" = j1.\"id\"",
      b!"\tFULL JOIN \"test_join3\" AS j3 ON j3.\"join2_id\" = j2.\"id\"",
      b!"\tCROSS JOIN \"test_join4\" AS j4",
      b!"\tWHERE u.\"id\" = p.\"user_id\" AND p.\"is_spam\" IS TRUE` // `",
      b!"",
      b!"\t_, err := c.Exec(queryString)",
      b!"\treturn err",
      b!"}",
      b!""] }

/-- internal/testdata/generator/delete/where_block_1_in.go:7 -/
def delete_where_block_1_0 : List (FieldHdr × Ty) := [
    low b!"_" g_Relation [(b!"rel", [b!"test_user"])],
    fld b!"Where" (.struct (.ofList [
    fld b!"Id" (.basic .int b!"int") [(b!"sql", [b!"id"])]]))]

/-- internal/testdata/generator/delete/where_block_1_out.go -/
def delete_where_block_1 : Golden :=
  { dir := b!"delete"
    file := b!"where_block_1"
    targets := [(b!"DeleteWithWhereBlock1Query", delete_where_block_1_0)]
    want := [
      b!"// DO NOT EDIT. This file was generated by \"github.com/frk/gosql\".",
      b!"",
      b!"package testdata",
      b!"",
      b!"import (",
      b!"\t\"github.com/frk/gosql\"",
      b!")",
      b!"",
      b!"func (q *DeleteWithWhereBlock1Query) Exec(c gosql.Conn) error {",
      b!"\tconst queryString = `DELETE FROM \"test_user\"",
      b!"\tWHERE \"id\" = $1` // `",
      b!"",
      b!"\t_, err := c.Exec(queryString, q.Where.Id)",
      b!"\treturn err",
      b!"}",
      b!""] }

/-- internal/testdata/generator/delete/where_block_2_in.go:9 -/
def delete_where_block_2_0 : List (FieldHdr × Ty) := [
    low b!"_" g_Relation [(b!"rel", [b!"test_user"])],
    fld b!"Where" (.struct (.ofList [
    fld b!"CreatedAfter" time_Time [(b!"sql", [b!"created_at >"])],
    fld b!"CreatedBefore" time_Time [(b!"sql", [b!"created_at <"])],
    fld b!"FullName" (.struct (.ofList [
    low b!"_" g_Column [(b!"sql", [b!"full_name = 'John Doe'"])],
    low b!"_" g_Column [(b!"bool", [b!"or"]), (b!"sql", [b!"full_name = 'Jane Doe'"])]])) [(b!"sql", [b!">"])]]))]

/-- internal/testdata/generator/delete/where_block_2_out.go -/
def delete_where_block_2 : Golden :=
  { dir := b!"delete"
    file := b!"where_block_2"
    method := b!"ExecQuery"
    targets := [(b!"DeleteWithWhereBlock2Query", delete_where_block_2_0)]
    want := [
      b!"// DO NOT EDIT. This file was generated by \"github.com/frk/gosql\".",
      b!"",
      b!"package testdata",
      b!"",
      b!"import (",
      b!"\t\"github.com/frk/gosql\"",
      b!")",
      b!"",
      b!"func (q *DeleteWithWhereBlock2Query) ExecQuery(c gosql.Conn) error {",
      b!"\tconst queryString = `DELETE FROM \"test_user\"",
      b!"\tWHERE \"created_at\" > $1",
      b!"\tAND \"created_at\" < $2",
      b!"\tAND (\"full_name\" = 'John Doe' OR \"full_name\" = 'Jane Doe')` // `",
      b!"",
      b!"\t_, err := c.Exec(queryString, q.Where.CreatedAfter, q.Where.CreatedBefore)",
      b!"\treturn err",
      b!"}",
      b!""] }

def deleteGoldens0 : List Golden := [
  delete_all_directive, delete_datatype_1, delete_datatype_2, delete_filter]

def deleteGoldens1 : List Golden := [
  delete_result_iterator_afterscan, delete_result_iterator_errorhandler,
  delete_result_iterator_errorinfohandler, delete_result_iterator]

def deleteGoldens2 : List Golden := [
  delete_result_single_afterscan, delete_result_single_errorhandler,
  delete_result_single_errorinfohandler, delete_result_single]

def deleteGoldens3 : List Golden := [
  delete_result_slice_afterscan, delete_result_slice, delete_returning_iterator_afterscan,
  delete_returning_iterator]

def deleteGoldens4 : List Golden := [
  delete_returning_single_afterscan, delete_returning_single_all, delete_returning_single_collist,
  delete_returning_slice_all]

def deleteGoldens5 : List Golden := [
  delete_returning_slice_afterscan, delete_returning_slice_collist,
  delete_returning_slice_context, delete_returning_slice_errorhandler]

def deleteGoldens6 : List Golden := [
  delete_returning_slice_errorinfohandler, delete_rowsaffected, delete_rowsaffected_errorhandler,
  delete_rowsaffected_errorinfohandler]

def deleteGoldens7 : List Golden := [
  delete_using_join_block_1, delete_using_join_block_2, delete_where_block_1, delete_where_block_2]

def deleteGoldens : List Golden :=
  deleteGoldens0 ++ deleteGoldens1 ++ deleteGoldens2 ++ deleteGoldens3 ++ deleteGoldens4 ++ deleteGoldens5 ++
  deleteGoldens6 ++ deleteGoldens7

end Verif.Conform
