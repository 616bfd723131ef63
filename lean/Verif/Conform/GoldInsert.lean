import Verif.Conform.GoldTypes
import Verif.Conform.GoldBase

/-
The input and the expected output of the generator tests, /repo/internal/testdata/generator/insert.

This file is written by /verif/tools/conform.py; do not edit it by hand.
-/
namespace Verif.Conform
open Verif.Analysis

/-- internal/testdata/generator/insert/basic_single_in.go:14 -/
def insert_basic_single_0 : List (FieldHdr × Ty) := [
    fld b!"User" (.ptr q_insert_User) [(b!"rel", [b!"test_user:u"])]]

/-- internal/testdata/generator/insert/basic_single_out.go -/
def insert_basic_single : Golden :=
  { dir := b!"insert"
    file := b!"basic_single"
    targets := [(b!"InsertBasicSingleQuery", insert_basic_single_0)]
    want := [
      b!"// DO NOT EDIT. This file was generated by \"github.com/frk/gosql\".",
      b!"",
      b!"package testdata",
      b!"",
      b!"import (",
      b!"\t\"github.com/frk/gosql\"",
      b!")",
      b!"",
      b!"func (q *InsertBasicSingleQuery) Exec(c gosql.Conn) error {",
      b!"\tconst queryString = `INSERT INTO \"test_user\" AS u (",
      b!"\t\t\"id\"",
      b!"\t\t, \"email\"",
      b!"\t\t, \"full_name\"",
      b!"\t\t, \"created_at\"",
      b!"\t) VALUES (",
      b!"\t\t$1",
      b!"\t\t, $2",
      b!"\t\t, $3",
      b!"\t\t, $4",
      b!"\t)` // `",
      b!"",
      b!"\t_, err := c.Exec(queryString,",
      b!"\t\tq.User.Id,",
      b!"\t\tq.User.Email,",
      b!"\t\tq.User.FullName,",
      b!"\t\tq.User.CreatedAt,",
      b!"\t)",
      b!"\treturn err",
      b!"}",
      b!""] }

/-- internal/testdata/generator/insert/basic_single2_in.go:7 -/
def insert_basic_single2_0 : List (FieldHdr × Ty) := [
    fld b!"Rel" (.ptr d_CT3b) [(b!"rel", [b!"column_tests_3"])]]

/-- internal/testdata/generator/insert/basic_single2_out.go -/
def insert_basic_single2 : Golden :=
  { dir := b!"insert"
    file := b!"basic_single2"
    targets := [(b!"InsertBasicSingle2Query", insert_basic_single2_0)]
    want := [
      b!"// DO NOT EDIT. This file was generated by \"github.com/frk/gosql\".",
      b!"",
      b!"package testdata",
      b!"",
      b!"import (",
      b!"\t\"github.com/frk/gosql\"",
      b!")",
      b!"",
      b!"func (q *InsertBasicSingle2Query) Exec(c gosql.Conn) error {",
      b!"\tconst queryString = `INSERT INTO \"column_tests_3\" (",
      b!"\t\t\"color_text\"",
      b!"\t\t, \"color_enum\"",
      b!"\t\t, \"some_time\"",
      b!"\t) VALUES (",
      b!"\t\tNULLIF($1, '')::text",
      b!"\t\t, $2",
      b!"\t\t, $3",
      b!"\t)` // `",
      b!"",
      b!"\t_, err := c.Exec(queryString,",
      b!"\t\tq.Rel.ColorText,",
      b!"\t\tq.Rel.ColorEnum,",
      b!"\t\tq.Rel.SomeTime,",
      b!"\t)",
      b!"\treturn err",
      b!"}",
      b!""] }

/-- internal/testdata/generator/insert/basic_slice_in.go:14 -/
def insert_basic_slice_0 : List (FieldHdr × Ty) := [
    fld b!"Users" (.slice (.ptr q_insert_User)) [(b!"rel", [b!"test_user:u"])]]

/-- internal/testdata/generator/insert/basic_slice_out.go -/
def insert_basic_slice : Golden :=
  { dir := b!"insert"
    file := b!"basic_slice"
    targets := [(b!"InsertBasicSliceQuery", insert_basic_slice_0)]
    want := [
      b!"// DO NOT EDIT. This file was generated by \"github.com/frk/gosql\".",
      b!"",
      b!"package testdata",
      b!"",
      b!"import (",
      b!"\t\"github.com/frk/gosql\"",
      b!")",
      b!"",
      b!"func (q *InsertBasicSliceQuery) Exec(c gosql.Conn) error {",
      b!"\tvar queryString = `INSERT INTO \"test_user\" AS u (",
      b!"\t\t\"id\"",
      b!"\t\t, \"email\"",
      b!"\t\t, \"full_name\"",
      b!"\t\t, \"created_at\"",
      b!"\t) VALUES ` // `",
      b!"",
      b!"\tparams := make([]interface{}, len(q.Users)*4)",
      b!"\tfor i, v := range q.Users {",
      b!"\t\tpos := i * 4",
      b!"",
      b!"\t\tparams[pos+0] = v.Id",
      b!"\t\tparams[pos+1] = v.Email",
      b!"\t\tparams[pos+2] = v.FullName",
      b!"\t\tparams[pos+3] = v.CreatedAt",
      b!"",
      b!"\t\tqueryString += `(` + gosql.OrdinalParameters[pos+0] +",
      b!"\t\t\t`, ` + gosql.OrdinalParameters[pos+1] +",
      b!"\t\t\t`, ` + gosql.OrdinalParameters[pos+2] +",
      b!"\t\t\t`, ` + gosql.OrdinalParameters[pos+3] +",
      b!"\t\t\t`),`",
      b!"\t}",
      b!"",
      b!"\tqueryString = queryString[:len(queryString)-1]",
      b!"",
      b!"\t_, err := c.Exec(queryString, params...)",
      b!"\treturn err",
      b!"}",
      b!""] }

/-- internal/testdata/generator/insert/default_all_returning_single_in.go:10 -/
def insert_default_all_returning_single_0 : List (FieldHdr × Ty) := [
    fld b!"User" (.ptr c_User4) [(b!"rel", [b!"test_user_with_defaults:u"])],
    low b!"_" g_Default [(b!"sql", [b!"*"])],
    low b!"_" g_Return [(b!"sql", [b!"*"])]]

/-- internal/testdata/generator/insert/default_all_returning_single_out.go -/
def insert_default_all_returning_single : Golden :=
  { dir := b!"insert"
    file := b!"default_all_returning_single"
    targets := [(b!"InsertDefaultAllReturningSingleQuery", insert_default_all_returning_single_0)]
    want := [
      b!"// DO NOT EDIT. This file was generated by \"github.com/frk/gosql\".",
      b!"",
      b!"package testdata",
      b!"",
      b!"import (",
      b!"\t\"github.com/frk/gosql\"",
      b!")",
      b!"",
      b!"func (q *InsertDefaultAllReturningSingleQuery) Exec(c gosql.Conn) error {",
      b!"\tconst queryString = `INSERT INTO \"test_user_with_defaults\" AS u (",
      b!"\t\t\"email\"",
      b!"\t\t, \"full_name\"",
      b!"\t\t, \"is_active\"",
      b!"\t\t, \"created_at\"",
      b!"\t\t, \"updated_at\"",
      b!"\t) VALUES (",
      b!"\t\tDEFAULT",
      b!"\t\t, DEFAULT",
      b!"\t\t, DEFAULT",
      b!"\t\t, DEFAULT",
      b!"\t\t, DEFAULT",
      b!"\t)",
      b!"\tRETURNING",
      b!"\tu.\"id\"",
      b!"\t, u.\"email\"",
      b!"\t, u.\"full_name\"",
      b!"\t, u.\"is_active\"",
      b!"\t, u.\"created_at\"",
      b!"\t, u.\"updated_at\"` // `",
      b!"",
      b!"\trow := c.QueryRow(queryString)",
      b!"\treturn row.Scan(",
      b!"\t\t&q.User.Id,",
      b!"\t\t&q.User.Email,",
      b!"\t\t&q.User.FullName,",
      b!"\t\t&q.User.IsActive,",
      b!"\t\t&q.User.CreatedAt,",
      b!"\t\t&q.User.UpdatedAt,",
      b!"\t)",
      b!"}",
      b!""] }

/-- internal/testdata/generator/insert/default_all_returning_slice_in.go:10 -/
def insert_default_all_returning_slice_0 : List (FieldHdr × Ty) := [
    fld b!"Users" (.slice (.ptr c_User4)) [(b!"rel", [b!"test_user_with_defaults:u"])],
    low b!"_" g_Default [(b!"sql", [b!"*"])],
    low b!"_" g_Return [(b!"sql", [b!"*"])]]

/-- internal/testdata/generator/insert/default_all_returning_slice_out.go -/
def insert_default_all_returning_slice : Golden :=
  { dir := b!"insert"
    file := b!"default_all_returning_slice"
    targets := [(b!"InsertDefaultAllReturningSliceQuery", insert_default_all_returning_slice_0)]
    want := [
      b!"// DO NOT EDIT. This file was generated by \"github.com/frk/gosql\".",
      b!"",
      b!"package testdata",
      b!"",
      b!"import (",
      b!"\t\"github.com/frk/gosql\"",
      b!")",
      b!"",
      b!"func (q *InsertDefaultAllReturningSliceQuery) Exec(c gosql.Conn) error {",
      b!"\tvar queryString = `INSERT INTO \"test_user_with_defaults\" AS u (",
      b!"\t\t\"email\"",
      b!"\t\t, \"full_name\"",
      b!"\t\t, \"is_active\"",
      b!"\t\t, \"created_at\"",
      b!"\t\t, \"updated_at\"",
      b!"\t) VALUES ` // `",
      b!"",
      b!"\tfor _, _ = range q.Users {",
      b!"\t\tqueryString += `(DEFAULT` +",
      b!"\t\t\t`, DEFAULT` +",
      b!"\t\t\t`, DEFAULT` +",
      b!"\t\t\t`, DEFAULT` +",
      b!"\t\t\t`, DEFAULT` +",
      b!"\t\t\t`),`",
      b!"\t}",
      b!"",
      b!"\tqueryString = queryString[:len(queryString)-1]",
      b!"\tqueryString += ` RETURNING",
      b!"\tu.\"id\"",
      b!"\t, u.\"email\"",
      b!"\t, u.\"full_name\"",
      b!"\t, u.\"is_active\"",
      b!"\t, u.\"created_at\"",
      b!"\t, u.\"updated_at\"` // `",
      b!"",
      b!"\trows, err := c.Query(queryString)",
      b!"\tif err != nil {",
      b!"\t\treturn err",
      b!"\t}",
      b!"\tdefer rows.Close()",
      b!"",
      b!"\ti := 0",
      b!"\tfor rows.Next() {",
      b!"\t\terr := rows.Scan(",
      b!"\t\t\t&q.Users[i].Id,",
      b!"\t\t\t&q.Users[i].Email,",
      b!"\t\t\t&q.Users[i].FullName,",
      b!"\t\t\t&q.Users[i].IsActive,",
      b!"\t\t\t&q.Users[i].CreatedAt,",
      b!"\t\t\t&q.Users[i].UpdatedAt,",
      b!"\t\t)",
      b!"\t\tif err != nil {",
      b!"\t\t\treturn err",
      b!"\t\t}",
      b!"",
      b!"\t\ti += 1",
      b!"\t}",
      b!"\treturn rows.Err()",
      b!"}",
      b!""] }

/-- internal/testdata/generator/insert/default_all_single_in.go:10 -/
def insert_default_all_single_0 : List (FieldHdr × Ty) := [
    fld b!"User" (.ptr c_User4) [(b!"rel", [b!"test_user_with_defaults:u"])],
    low b!"_" g_Default [(b!"sql", [b!"*"])]]

/-- internal/testdata/generator/insert/default_all_single_out.go -/
def insert_default_all_single : Golden :=
  { dir := b!"insert"
    file := b!"default_all_single"
    targets := [(b!"InsertDefaultAllSingleQuery", insert_default_all_single_0)]
    want := [
      b!"// DO NOT EDIT. This file was generated by \"github.com/frk/gosql\".",
      b!"",
      b!"package testdata",
      b!"",
      b!"import (",
      b!"\t\"github.com/frk/gosql\"",
      b!")",
      b!"",
      b!"func (q *InsertDefaultAllSingleQuery) Exec(c gosql.Conn) error {",
      b!"\tconst queryString = `INSERT INTO \"test_user_with_defaults\" AS u (",
      b!"\t\t\"email\"",
      b!"\t\t, \"full_name\"",
      b!"\t\t, \"is_active\"",
      b!"\t\t, \"created_at\"",
      b!"\t\t, \"updated_at\"",
      b!"\t) VALUES (",
      b!"\t\tDEFAULT",
      b!"\t\t, DEFAULT",
      b!"\t\t, DEFAULT",
      b!"\t\t, DEFAULT",
      b!"\t\t, DEFAULT",
      b!"\t)` // `",
      b!"",
      b!"\t_, err := c.Exec(queryString)",
      b!"\treturn err",
      b!"}",
      b!""] }

/-- internal/testdata/generator/insert/default_all_slice_in.go:10 -/
def insert_default_all_slice_0 : List (FieldHdr × Ty) := [
    fld b!"Users" (.slice (.ptr c_User4)) [(b!"rel", [b!"test_user_with_defaults:u"])],
    low b!"_" g_Default [(b!"sql", [b!"*"])]]

/-- internal/testdata/generator/insert/default_all_slice_out.go -/
def insert_default_all_slice : Golden :=
  { dir := b!"insert"
    file := b!"default_all_slice"
    targets := [(b!"InsertDefaultAllSliceQuery", insert_default_all_slice_0)]
    want := [
      b!"// DO NOT EDIT. This file was generated by \"github.com/frk/gosql\".",
      b!"",
      b!"package testdata",
      b!"",
      b!"import (",
      b!"\t\"github.com/frk/gosql\"",
      b!")",
      b!"",
      b!"func (q *InsertDefaultAllSliceQuery) Exec(c gosql.Conn) error {",
      b!"\tvar queryString = `INSERT INTO \"test_user_with_defaults\" AS u (",
      b!"\t\t\"email\"",
      b!"\t\t, \"full_name\"",
      b!"\t\t, \"is_active\"",
      b!"\t\t, \"created_at\"",
      b!"\t\t, \"updated_at\"",
      b!"\t) VALUES ` // `",
      b!"",
      b!"\tfor _, _ = range q.Users {",
      b!"\t\tqueryString += `(DEFAULT` +",
      b!"\t\t\t`, DEFAULT` +",
      b!"\t\t\t`, DEFAULT` +",
      b!"\t\t\t`, DEFAULT` +",
      b!"\t\t\t`, DEFAULT` +",
      b!"\t\t\t`),`",
      b!"\t}",
      b!"",
      b!"\tqueryString = queryString[:len(queryString)-1]",
      b!"",
      b!"\t_, err := c.Exec(queryString)",
      b!"\treturn err",
      b!"}",
      b!""] }

/-- internal/testdata/generator/insert/default_single_in.go:10 -/
def insert_default_single_0 : List (FieldHdr × Ty) := [
    fld b!"User" (.ptr c_User3) [(b!"rel", [b!"test_user:u"])],
    low b!"_" g_Default [(b!"sql", [b!"u.password"])]]

/-- internal/testdata/generator/insert/default_single_out.go -/
def insert_default_single : Golden :=
  { dir := b!"insert"
    file := b!"default_single"
    targets := [(b!"InsertDefaultSingleQuery", insert_default_single_0)]
    want := [
      b!"// DO NOT EDIT. This file was generated by \"github.com/frk/gosql\".",
      b!"",
      b!"package testdata",
      b!"",
      b!"import (",
      b!"\t\"github.com/frk/gosql\"",
      b!")",
      b!"",
      b!"func (q *InsertDefaultSingleQuery) Exec(c gosql.Conn) error {",
      b!"\tconst queryString = `INSERT INTO \"test_user\" AS u (",
      b!"\t\t\"email\"",
      b!"\t\t, \"password\"",
      b!"\t\t, \"created_at\"",
      b!"\t\t, \"updated_at\"",
      b!"\t) VALUES (",
      b!"\t\t$1",
      b!"\t\t, DEFAULT",
      b!"\t\t, $2",
      b!"\t\t, $3",
      b!"\t)` // `",
      b!"",
      b!"\t_, err := c.Exec(queryString,",
      b!"\t\tq.User.Email,",
      b!"\t\tq.User.CreatedAt,",
      b!"\t\tq.User.UpdatedAt,",
      b!"\t)",
      b!"\treturn err",
      b!"}",
      b!""] }

/-- internal/testdata/generator/insert/default_slice_in.go:10 -/
def insert_default_slice_0 : List (FieldHdr × Ty) := [
    fld b!"Users" (.slice (.ptr c_User4)) [(b!"rel", [b!"test_user_with_defaults:u"])],
    low b!"_" g_Default [(b!"sql", [b!"u.full_name", b!"u.created_at"])]]

/-- internal/testdata/generator/insert/default_slice_out.go -/
def insert_default_slice : Golden :=
  { dir := b!"insert"
    file := b!"default_slice"
    targets := [(b!"InsertDefaultSliceQuery", insert_default_slice_0)]
    want := [
      b!"// DO NOT EDIT. This file was generated by \"github.com/frk/gosql\".",
      b!"",
      b!"package testdata",
      b!"",
      b!"import (",
      b!"\t\"github.com/frk/gosql\"",
      b!")",
      b!"",
      b!"func (q *InsertDefaultSliceQuery) Exec(c gosql.Conn) error {",
      b!"\tvar queryString = `INSERT INTO \"test_user_with_defaults\" AS u (",
      b!"\t\t\"email\"",
      b!"\t\t, \"full_name\"",
      b!"\t\t, \"is_active\"",
      b!"\t\t, \"created_at\"",
      b!"\t\t, \"updated_at\"",
      b!"\t) VALUES ` // `",
      b!"",
      b!"\tparams := make([]interface{}, len(q.Users)*3)",
      b!"\tfor i, v := range q.Users {",
      b!"\t\tpos := i * 3",
      b!"",
      b!"\t\tparams[pos+0] = v.Email",
      b!"\t\tparams[pos+1] = v.IsActive",
      b!"\t\tparams[pos+2] = v.UpdatedAt",
      b!"",
      b!"\t\tqueryString += `(` + gosql.OrdinalParameters[pos+0] +",
      b!"\t\t\t`, DEFAULT` +",
      b!"\t\t\t`, ` + gosql.OrdinalParameters[pos+1] +",
      b!"\t\t\t`, DEFAULT` +",
      b!"\t\t\t`, ` + gosql.OrdinalParameters[pos+2] +",
      b!"\t\t\t`),`",
      b!"\t}",
      b!"",
      b!"\tqueryString = queryString[:len(queryString)-1]",
      b!"",
      b!"\t_, err := c.Exec(queryString, params...)",
      b!"\treturn err",
      b!"}",
      b!""] }

/-- internal/testdata/generator/insert/json_single_in.go:7 -/
def insert_json_single_0 : List (FieldHdr × Ty) := [
    fld b!"User" (.ptr c_User5) [(b!"rel", [b!"test_user:u"])]]

/-- internal/testdata/generator/insert/json_single_out.go -/
def insert_json_single : Golden :=
  { dir := b!"insert"
    file := b!"json_single"
    targets := [(b!"InsertJSONSingleQuery", insert_json_single_0)]
    want := [
      b!"// DO NOT EDIT. This file was generated by \"github.com/frk/gosql\".",
      b!"",
      b!"package testdata",
      b!"",
      b!"import (",
      b!"\t\"github.com/frk/gosql\"",
      b!"\t\"github.com/frk/gosql/pgsql\"",
      b!")",
      b!"",
      b!"func (q *InsertJSONSingleQuery) Exec(c gosql.Conn) error {",
      b!"\tconst queryString = `INSERT INTO \"test_user\" AS u (",
      b!"\t\t\"email\"",
      b!"\t\t, \"full_name\"",
      b!"\t\t, \"is_active\"",
      b!"\t\t, \"metadata1\"",
      b!"\t\t, \"metadata2\"",
      b!"\t\t, \"created_at\"",
      b!"\t\t, \"updated_at\"",
      b!"\t) VALUES (",
      b!"\t\t$1",
      b!"\t\t, $2",
      b!"\t\t, $3",
      b!"\t\t, $4",
      b!"\t\t, $5",
      b!"\t\t, $6",
      b!"\t\t, $7",
      b!"\t)` // `",
      b!"",
      b!"\t_, err := c.Exec(queryString,",
      b!"\t\tq.User.Email,",
      b!"\t\tq.User.FullName,",
      b!"\t\tq.User.IsActive,",
      b!"\t\tpgsql.JSON(q.User.Metadata1),",
      b!"\t\tpgsql.JSON(q.User.Metadata2),",
      b!"\t\tq.User.CreatedAt,",
      b!"\t\tq.User.UpdatedAt,",
      b!"\t)",
      b!"\treturn err",
      b!"}",
      b!""] }

/-- internal/testdata/generator/insert/json_slice_in.go:7 -/
def insert_json_slice_0 : List (FieldHdr × Ty) := [
    fld b!"Users" (.slice (.ptr c_User5)) [(b!"rel", [b!"test_user:u"])]]

/-- internal/testdata/generator/insert/json_slice_out.go -/
def insert_json_slice : Golden :=
  { dir := b!"insert"
    file := b!"json_slice"
    targets := [(b!"InsertJSONSliceQuery", insert_json_slice_0)]
    want := [
      b!"// DO NOT EDIT. This file was generated by \"github.com/frk/gosql\".",
      b!"",
      b!"package testdata",
      b!"",
      b!"import (",
      b!"\t\"github.com/frk/gosql\"",
      b!"\t\"github.com/frk/gosql/pgsql\"",
      b!")",
      b!"",
      b!"func (q *InsertJSONSliceQuery) Exec(c gosql.Conn) error {",
      b!"\tvar queryString = `INSERT INTO \"test_user\" AS u (",
      b!"\t\t\"email\"",
      b!"\t\t, \"full_name\"",
      b!"\t\t, \"is_active\"",
      b!"\t\t, \"metadata1\"",
      b!"\t\t, \"metadata2\"",
      b!"\t\t, \"created_at\"",
      b!"\t\t, \"updated_at\"",
      b!"\t) VALUES ` // `",
      b!"",
      b!"\tparams := make([]interface{}, len(q.Users)*7)",
      b!"\tfor i, v := range q.Users {",
      b!"\t\tpos := i * 7",
      b!"",
      b!"\t\tparams[pos+0] = v.Email",
      b!"\t\tparams[pos+1] = v.FullName",
      b!"\t\tparams[pos+2] = v.IsActive",
      b!"\t\tparams[pos+3] = pgsql.JSON(v.Metadata1)",
      b!"\t\tparams[pos+4] = pgsql.JSON(v.Metadata2)",
      b!"\t\tparams[pos+5] = v.CreatedAt",
      b!"\t\tparams[pos+6] = v.UpdatedAt",
      b!"",
      b!"\t\tqueryString += `(` + gosql.OrdinalParameters[pos+0] +",
      b!"\t\t\t`, ` + gosql.OrdinalParameters[pos+1] +",
      b!"\t\t\t`, ` + gosql.OrdinalParameters[pos+2] +",
      b!"\t\t\t`, ` + gosql.OrdinalParameters[pos+3] +",
      b!"\t\t\t`, ` + gosql.OrdinalParameters[pos+4] +",
      b!"\t\t\t`, ` + gosql.OrdinalParameters[pos+5] +",
      b!"\t\t\t`, ` + gosql.OrdinalParameters[pos+6] +",
      b!"\t\t\t`),`",
      b!"\t}",
      b!"",
      b!"\tqueryString = queryString[:len(queryString)-1]",
      b!"",
      b!"\t_, err := c.Exec(queryString, params...)",
      b!"\treturn err",
      b!"}",
      b!""] }

/-- internal/testdata/generator/insert/onconflict_column_ignore_single_1_in.go:8 -/
def insert_onconflict_column_ignore_single_1_0 : List (FieldHdr × Ty) := [
    fld b!"Data" (.ptr c_ConflictData) [(b!"rel", [b!"test_onconflict:k"])],
    fld b!"OnConflict" (.struct (.ofList [
    low b!"_" g_Column [(b!"sql", [b!"key"])],
    low b!"_" g_Ignore]))]

/-- internal/testdata/generator/insert/onconflict_column_ignore_single_1_out.go -/
def insert_onconflict_column_ignore_single_1 : Golden :=
  { dir := b!"insert"
    file := b!"onconflict_column_ignore_single_1"
    targets := [(b!"InsertOnConflictColumnIgnoreSingle1Query", insert_onconflict_column_ignore_single_1_0)]
    want := [
      b!"// DO NOT EDIT. This file was generated by \"github.com/frk/gosql\".",
      b!"",
      b!"package testdata",
      b!"",
      b!"import (",
      b!"\t\"github.com/frk/gosql\"",
      b!")",
      b!"",
      b!"func (q *InsertOnConflictColumnIgnoreSingle1Query) Exec(c gosql.Conn) error {",
      b!"\tconst queryString = `INSERT INTO \"test_onconflict\" AS k (",
      b!"\t\t\"key\"",
      b!"\t\t, \"name\"",
      b!"\t\t, \"fruit\"",
      b!"\t\t, \"value\"",
      b!"\t) VALUES (",
      b!"\t\tNULLIF($1, 0)::integer",
      b!"\t\t, NULLIF($2, '')::text",
      b!"\t\t, NULLIF($3, '')::text",
      b!"\t\t, NULLIF($4, 0)::double precision",
      b!"\t)",
      b!"\tON CONFLICT (key)",
      b!"\tDO NOTHING` // `",
      b!"",
      b!"\t_, err := c.Exec(queryString,",
      b!"\t\tq.Data.Key,",
      b!"\t\tq.Data.Name,",
      b!"\t\tq.Data.Fruit,",
      b!"\t\tq.Data.Value,",
      b!"\t)",
      b!"\treturn err",
      b!"}",
      b!""] }

/-- internal/testdata/generator/insert/onconflict_column_ignore_single_2_in.go:8 -/
def insert_onconflict_column_ignore_single_2_0 : List (FieldHdr × Ty) := [
    fld b!"Data" (.ptr c_ConflictData) [(b!"rel", [b!"test_onconflict:k"])],
    fld b!"OnConflict" (.struct (.ofList [
    low b!"_" g_Column [(b!"sql", [b!"key", b!"name"])],
    low b!"_" g_Ignore]))]

/-- internal/testdata/generator/insert/onconflict_column_ignore_single_2_out.go -/
def insert_onconflict_column_ignore_single_2 : Golden :=
  { dir := b!"insert"
    file := b!"onconflict_column_ignore_single_2"
    targets := [(b!"InsertOnConflictColumnIgnoreSingle2Query", insert_onconflict_column_ignore_single_2_0)]
    want := [
      b!"// DO NOT EDIT. This file was generated by \"github.com/frk/gosql\".",
      b!"",
      b!"package testdata",
      b!"",
      b!"import (",
      b!"\t\"github.com/frk/gosql\"",
      b!")",
      b!"",
      b!"func (q *InsertOnConflictColumnIgnoreSingle2Query) Exec(c gosql.Conn) error {",
      b!"\tconst queryString = `INSERT INTO \"test_onconflict\" AS k (",
      b!"\t\t\"key\"",
      b!"\t\t, \"name\"",
      b!"\t\t, \"fruit\"",
      b!"\t\t, \"value\"",
      b!"\t) VALUES (",
      b!"\t\tNULLIF($1, 0)::integer",
      b!"\t\t, NULLIF($2, '')::text",
      b!"\t\t, NULLIF($3, '')::text",
      b!"\t\t, NULLIF($4, 0)::double precision",
      b!"\t)",
      b!"\tON CONFLICT (key, name)",
      b!"\tDO NOTHING` // `",
      b!"",
      b!"\t_, err := c.Exec(queryString,",
      b!"\t\tq.Data.Key,",
      b!"\t\tq.Data.Name,",
      b!"\t\tq.Data.Fruit,",
      b!"\t\tq.Data.Value,",
      b!"\t)",
      b!"\treturn err",
      b!"}",
      b!""] }

/-- internal/testdata/generator/insert/onconflict_column_update_single_1_in.go:8 -/
def insert_onconflict_column_update_single_1_0 : List (FieldHdr × Ty) := [
    fld b!"Data" (.ptr c_ConflictData) [(b!"rel", [b!"test_onconflict:k"])],
    fld b!"OnConflict" (.struct (.ofList [
    low b!"_" g_Column [(b!"sql", [b!"key"])],
    low b!"_" g_Update [(b!"sql", [b!"fruit"])]]))]

/-- internal/testdata/generator/insert/onconflict_column_update_single_1_out.go -/
def insert_onconflict_column_update_single_1 : Golden :=
  { dir := b!"insert"
    file := b!"onconflict_column_update_single_1"
    targets := [(b!"InsertOnConflictColumnUpdateSingle1Query", insert_onconflict_column_update_single_1_0)]
    want := [
      b!"// DO NOT EDIT. This file was generated by \"github.com/frk/gosql\".",
      b!"",
      b!"package testdata",
      b!"",
      b!"import (",
      b!"\t\"github.com/frk/gosql\"",
      b!")",
      b!"",
      b!"func (q *InsertOnConflictColumnUpdateSingle1Query) Exec(c gosql.Conn) error {",
      b!"\tconst queryString = `INSERT INTO \"test_onconflict\" AS k (",
      b!"\t\t\"key\"",
      b!"\t\t, \"name\"",
      b!"\t\t, \"fruit\"",
      b!"\t\t, \"value\"",
      b!"\t) VALUES (",
      b!"\t\tNULLIF($1, 0)::integer",
      b!"\t\t, NULLIF($2, '')::text",
      b!"\t\t, NULLIF($3, '')::text",
      b!"\t\t, NULLIF($4, 0)::double precision",
      b!"\t)",
      b!"\tON CONFLICT (key)",
      b!"\tDO UPDATE SET \"fruit\" = EXCLUDED.\"fruit\"` // `",
      b!"",
      b!"\t_, err := c.Exec(queryString,",
      b!"\t\tq.Data.Key,",
      b!"\t\tq.Data.Name,",
      b!"\t\tq.Data.Fruit,",
      b!"\t\tq.Data.Value,",
      b!"\t)",
      b!"\treturn err",
      b!"}",
      b!""] }

/-- internal/testdata/generator/insert/onconflict_column_update_returning_slice_in.go:8 -/
def insert_onconflict_column_update_returning_slice_0 : List (FieldHdr × Ty) := [
    fld b!"Data" (.slice (.ptr c_ConflictData)) [(b!"rel", [b!"test_onconflict:k"])],
    fld b!"OnConflict" (.struct (.ofList [
    low b!"_" g_Column [(b!"sql", [b!"key"])],
    low b!"_" g_Update [(b!"sql", [b!"fruit"])]])),
    low b!"_" g_Return [(b!"sql", [b!"*"])]]

/-- internal/testdata/generator/insert/onconflict_column_update_returning_slice_out.go -/
def insert_onconflict_column_update_returning_slice : Golden :=
  { dir := b!"insert"
    file := b!"onconflict_column_update_returning_slice"
    targets := [(b!"InsertOnConflictColumnUpdateReturningSliceQuery", insert_onconflict_column_update_returning_slice_0)]
    want := [
      b!"// DO NOT EDIT. This file was generated by \"github.com/frk/gosql\".",
      b!"",
      b!"package testdata",
      b!"",
      b!"import (",
      b!"\t\"github.com/frk/gosql\"",
      b!")",
      b!"",
      b!"func (q *InsertOnConflictColumnUpdateReturningSliceQuery) Exec(c gosql.Conn) error {",
      b!"\tvar queryString = `INSERT INTO \"test_onconflict\" AS k (",
      b!"\t\t\"key\"",
      b!"\t\t, \"name\"",
      b!"\t\t, \"fruit\"",
      b!"\t\t, \"value\"",
      b!"\t) VALUES ` // `",
      b!"",
      b!"\tparams := make([]interface{}, len(q.Data)*4)",
      b!"\tfor i, v := range q.Data {",
      b!"\t\tpos := i * 4",
      b!"",
      b!"\t\tparams[pos+0] = v.Key",
      b!"\t\tparams[pos+1] = v.Name",
      b!"\t\tparams[pos+2] = v.Fruit",
      b!"\t\tparams[pos+3] = v.Value",
      b!"",
      b!"\t\tqueryString += `(NULLIF(` + gosql.OrdinalParameters[pos+0] + `, 0)::integer` +",
      b!"\t\t\t`, NULLIF(` + gosql.OrdinalParameters[pos+1] + `, '')::text` +",
      b!"\t\t\t`, NULLIF(` + gosql.OrdinalParameters[pos+2] + `, '')::text` +",
      b!"\t\t\t`, NULLIF(` + gosql.OrdinalParameters[pos+3] + `, 0)::double precision` +",
      b!"\t\t\t`),`",
      b!"\t}",
      b!"",
      b!"\tqueryString = queryString[:len(queryString)-1]",
      b!"\tqueryString += ` ON CONFLICT (key)",
      b!"\tDO UPDATE SET \"fruit\" = EXCLUDED.\"fruit\"",
      b!"\tRETURNING",
      b!"\tk.\"id\"",
      b!"\t, COALESCE(k.\"key\", 0::integer)",
      b!"\t, COALESCE(k.\"name\", ''::text)",
      b!"\t, COALESCE(k.\"fruit\", ''::text)",
      b!"\t, COALESCE(k.\"value\", 0::double precision)` // `",
      b!"",
      b!"\trows, err := c.Query(queryString, params...)",
      b!"\tif err != nil {",
      b!"\t\treturn err",
      b!"\t}",
      b!"\tdefer rows.Close()",
      b!"",
      b!"\ti := 0",
      b!"\tfor rows.Next() {",
      b!"\t\terr := rows.Scan(",
      b!"\t\t\t&q.Data[i].Id,",
      b!"\t\t\t&q.Data[i].Key,",
      b!"\t\t\t&q.Data[i].Name,",
      b!"\t\t\t&q.Data[i].Fruit,",
      b!"\t\t\t&q.Data[i].Value,",
      b!"\t\t)",
      b!"\t\tif err != nil {",
      b!"\t\t\treturn err",
      b!"\t\t}",
      b!"",
      b!"\t\ti += 1",
      b!"\t}",
      b!"\treturn rows.Err()",
      b!"}",
      b!""] }

/-- internal/testdata/generator/insert/onconflict_constraint_ignore_single_1_in.go:8 -/
def insert_onconflict_constraint_ignore_single_1_0 : List (FieldHdr × Ty) := [
    fld b!"Data" (.ptr c_ConflictData) [(b!"rel", [b!"test_onconflict:k"])],
    fld b!"OnConflict" (.struct (.ofList [
    low b!"_" g_Constraint [(b!"sql", [b!"test_onconflict_key_value_key"])],
    low b!"_" g_Ignore]))]

/-- internal/testdata/generator/insert/onconflict_constraint_ignore_single_1_out.go -/
def insert_onconflict_constraint_ignore_single_1 : Golden :=
  { dir := b!"insert"
    file := b!"onconflict_constraint_ignore_single_1"
    targets := [(b!"InsertOnConflictConstraintIgnoreSingle1Query", insert_onconflict_constraint_ignore_single_1_0)]
    want := [
      b!"// DO NOT EDIT. This file was generated by \"github.com/frk/gosql\".",
      b!"",
      b!"package testdata",
      b!"",
      b!"import (",
      b!"\t\"github.com/frk/gosql\"",
      b!")",
      b!"",
      b!"func (q *InsertOnConflictConstraintIgnoreSingle1Query) Exec(c gosql.Conn) error {",
      b!"\tconst queryString = `INSERT INTO \"test_onconflict\" AS k (",
      b!"\t\t\"key\"",
      b!"\t\t, \"name\"",
      b!"\t\t, \"fruit\"",
      b!"\t\t, \"value\"",
      b!"\t) VALUES (",
      b!"\t\tNULLIF($1, 0)::integer",
      b!"\t\t, NULLIF($2, '')::text",
      b!"\t\t, NULLIF($3, '')::text",
      b!"\t\t, NULLIF($4, 0)::double precision",
      b!"\t)",
      b!"\tON CONFLICT ON CONSTRAINT \"test_onconflict_key_value_key\"",
      b!"\tDO NOTHING` // `",
      b!"",
      b!"\t_, err := c.Exec(queryString,",
      b!"\t\tq.Data.Key,",
      b!"\t\tq.Data.Name,",
      b!"\t\tq.Data.Fruit,",
      b!"\t\tq.Data.Value,",
      b!"\t)",
      b!"\treturn err",
      b!"}",
      b!""] }

/-- internal/testdata/generator/insert/onconflict_ignore_single_in.go:8 -/
def insert_onconflict_ignore_single_0 : List (FieldHdr × Ty) := [
    fld b!"Data" (.ptr c_ConflictData) [(b!"rel", [b!"test_onconflict:k"])],
    fld b!"OnConflict" (.struct (.ofList [
    low b!"_" g_Ignore]))]

/-- internal/testdata/generator/insert/onconflict_ignore_single_out.go -/
def insert_onconflict_ignore_single : Golden :=
  { dir := b!"insert"
    file := b!"onconflict_ignore_single"
    targets := [(b!"InsertOnConflictIgnoreSingleQuery", insert_onconflict_ignore_single_0)]
    want := [
      b!"// DO NOT EDIT. This file was generated by \"github.com/frk/gosql\".",
      b!"",
      b!"package testdata",
      b!"",
      b!"import (",
      b!"\t\"github.com/frk/gosql\"",
      b!")",
      b!"",
      b!"func (q *InsertOnConflictIgnoreSingleQuery) Exec(c gosql.Conn) error {",
      b!"\tconst queryString = `INSERT INTO \"test_onconflict\" AS k (",
      b!"\t\t\"key\"",
      b!"\t\t, \"name\"",
      b!"\t\t, \"fruit\"",
      b!"\t\t, \"value\"",
      b!"\t) VALUES (",
      b!"\t\tNULLIF($1, 0)::integer",
      b!"\t\t, NULLIF($2, '')::text",
      b!"\t\t, NULLIF($3, '')::text",
      b!"\t\t, NULLIF($4, 0)::double precision",
      b!"\t)",
      b!"\tON CONFLICT DO NOTHING` // `",
      b!"",
      b!"\t_, err := c.Exec(queryString,",
      b!"\t\tq.Data.Key,",
      b!"\t\tq.Data.Name,",
      b!"\t\tq.Data.Fruit,",
      b!"\t\tq.Data.Value,",
      b!"\t)",
      b!"\treturn err",
      b!"}",
      b!""] }

/-- internal/testdata/generator/insert/onconflict_ignore_slice_in.go:8 -/
def insert_onconflict_ignore_slice_0 : List (FieldHdr × Ty) := [
    fld b!"Data" (.slice (.ptr c_ConflictData)) [(b!"rel", [b!"test_onconflict:k"])],
    fld b!"OnConflict" (.struct (.ofList [
    low b!"_" g_Ignore]))]

/-- internal/testdata/generator/insert/onconflict_ignore_slice_out.go -/
def insert_onconflict_ignore_slice : Golden :=
  { dir := b!"insert"
    file := b!"onconflict_ignore_slice"
    targets := [(b!"InsertOnConflictIgnoreSliceQuery", insert_onconflict_ignore_slice_0)]
    want := [
      b!"// DO NOT EDIT. This file was generated by \"github.com/frk/gosql\".",
      b!"",
      b!"package testdata",
      b!"",
      b!"import (",
      b!"\t\"github.com/frk/gosql\"",
      b!")",
      b!"",
      b!"func (q *InsertOnConflictIgnoreSliceQuery) Exec(c gosql.Conn) error {",
      b!"\tvar queryString = `INSERT INTO \"test_onconflict\" AS k (",
      b!"\t\t\"key\"",
      b!"\t\t, \"name\"",
      b!"\t\t, \"fruit\"",
      b!"\t\t, \"value\"",
      b!"\t) VALUES ` // `",
      b!"",
      b!"\tparams := make([]interface{}, len(q.Data)*4)",
      b!"\tfor i, v := range q.Data {",
      b!"\t\tpos := i * 4",
      b!"",
      b!"\t\tparams[pos+0] = v.Key",
      b!"\t\tparams[pos+1] = v.Name",
      b!"\t\tparams[pos+2] = v.Fruit",
      b!"\t\tparams[pos+3] = v.Value",
      b!"",
      b!"\t\tqueryString += `(NULLIF(` + gosql.OrdinalParameters[pos+0] + `, 0)::integer` +",
      b!"\t\t\t`, NULLIF(` + gosql.OrdinalParameters[pos+1] + `, '')::text` +",
      b!"\t\t\t`, NULLIF(` + gosql.OrdinalParameters[pos+2] + `, '')::text` +",
      b!"\t\t\t`, NULLIF(` + gosql.OrdinalParameters[pos+3] + `, 0)::double precision` +",
      b!"\t\t\t`),`",
      b!"\t}",
      b!"",
      b!"\tqueryString = queryString[:len(queryString)-1]",
      b!"\tqueryString += ` ON CONFLICT DO NOTHING` // `",
      b!"",
      b!"\t_, err := c.Exec(queryString, params...)",
      b!"\treturn err",
      b!"}",
      b!""] }

/-- internal/testdata/generator/insert/onconflict_index_ignore_single_1_in.go:8 -/
def insert_onconflict_index_ignore_single_1_0 : List (FieldHdr × Ty) := [
    fld b!"Data" (.ptr c_ConflictData) [(b!"rel", [b!"test_onconflict:k"])],
    fld b!"OnConflict" (.struct (.ofList [
    low b!"_" g_Index [(b!"sql", [b!"test_onconflict_name_fruit_idx"])],
    low b!"_" g_Ignore]))]

/-- internal/testdata/generator/insert/onconflict_index_ignore_single_1_out.go -/
def insert_onconflict_index_ignore_single_1 : Golden :=
  { dir := b!"insert"
    file := b!"onconflict_index_ignore_single_1"
    targets := [(b!"InsertOnConflictIndexIgnoreSingle1Query", insert_onconflict_index_ignore_single_1_0)]
    want := [
      b!"// DO NOT EDIT. This file was generated by \"github.com/frk/gosql\".",
      b!"",
      b!"package testdata",
      b!"",
      b!"import (",
      b!"\t\"github.com/frk/gosql\"",
      b!")",
      b!"",
      b!"func (q *InsertOnConflictIndexIgnoreSingle1Query) Exec(c gosql.Conn) error {",
      b!"\tconst queryString = `INSERT INTO \"test_onconflict\" AS k (",
      b!"\t\t\"key\"",
      b!"\t\t, \"name\"",
      b!"\t\t, \"fruit\"",
      b!"\t\t, \"value\"",
      b!"\t) VALUES (",
      b!"\t\tNULLIF($1, 0)::integer",
      b!"\t\t, NULLIF($2, '')::text",
      b!"\t\t, NULLIF($3, '')::text",
      b!"\t\t, NULLIF($4, 0)::double precision",
      b!"\t)",
      b!"\tON CONFLICT (lower(name), upper(fruit) COLLATE \"C\" text_pattern_ops)",
      b!"\tDO NOTHING` // `",
      b!"",
      b!"\t_, err := c.Exec(queryString,",
      b!"\t\tq.Data.Key,",
      b!"\t\tq.Data.Name,",
      b!"\t\tq.Data.Fruit,",
      b!"\t\tq.Data.Value,",
      b!"\t)",
      b!"\treturn err",
      b!"}",
      b!""] }

/-- internal/testdata/generator/insert/onconflict_index_ignore_single_2_in.go:8 -/
def insert_onconflict_index_ignore_single_2_0 : List (FieldHdr × Ty) := [
    fld b!"Data" (.ptr c_ConflictData) [(b!"rel", [b!"test_onconflict:k"])],
    fld b!"OnConflict" (.struct (.ofList [
    low b!"_" g_Index [(b!"sql", [b!"test_onconflict_fruit_key_name_idx"])],
    low b!"_" g_Ignore]))]

/-- internal/testdata/generator/insert/onconflict_index_ignore_single_2_out.go -/
def insert_onconflict_index_ignore_single_2 : Golden :=
  { dir := b!"insert"
    file := b!"onconflict_index_ignore_single_2"
    targets := [(b!"InsertOnConflictIndexIgnoreSingle2Query", insert_onconflict_index_ignore_single_2_0)]
    want := [
      b!"// DO NOT EDIT. This file was generated by \"github.com/frk/gosql\".",
      b!"",
      b!"package testdata",
      b!"",
      b!"import (",
      b!"\t\"github.com/frk/gosql\"",
      b!")",
      b!"",
      b!"func (q *InsertOnConflictIndexIgnoreSingle2Query) Exec(c gosql.Conn) error {",
      b!"\tconst queryString = `INSERT INTO \"test_onconflict\" AS k (",
      b!"\t\t\"key\"",
      b!"\t\t, \"name\"",
      b!"\t\t, \"fruit\"",
      b!"\t\t, \"value\"",
      b!"\t) VALUES (",
      b!"\t\tNULLIF($1, 0)::integer",
      b!"\t\t, NULLIF($2, '')::text",
      b!"\t\t, NULLIF($3, '')::text",
      b!"\t\t, NULLIF($4, 0)::double precision",
      b!"\t)",
      b!"\tON CONFLICT (lower(fruit), key, upper(name)) WHERE key < 5",
      b!"\tDO NOTHING` // `",
      b!"",
      b!"\t_, err := c.Exec(queryString,",
      b!"\t\tq.Data.Key,",
      b!"\t\tq.Data.Name,",
      b!"\t\tq.Data.Fruit,",
      b!"\t\tq.Data.Value,",
      b!"\t)",
      b!"\treturn err",
      b!"}",
      b!""] }

/-- internal/testdata/generator/insert/onconflict_index_update_single_1_in.go:8 -/
def insert_onconflict_index_update_single_1_0 : List (FieldHdr × Ty) := [
    fld b!"Data" (.ptr c_ConflictData) [(b!"rel", [b!"test_onconflict:k"])],
    fld b!"OnConflict" (.struct (.ofList [
    low b!"_" g_Index [(b!"sql", [b!"test_onconflict_name_fruit_idx"])],
    low b!"_" g_Update [(b!"sql", [b!"*"])]]))]

/-- internal/testdata/generator/insert/onconflict_index_update_single_1_out.go -/
def insert_onconflict_index_update_single_1 : Golden :=
  { dir := b!"insert"
    file := b!"onconflict_index_update_single_1"
    targets := [(b!"InsertOnConflictIndexUpdateSingle1Query", insert_onconflict_index_update_single_1_0)]
    want := [
      b!"// DO NOT EDIT. This file was generated by \"github.com/frk/gosql\".",
      b!"",
      b!"package testdata",
      b!"",
      b!"import (",
      b!"\t\"github.com/frk/gosql\"",
      b!")",
      b!"",
      b!"func (q *InsertOnConflictIndexUpdateSingle1Query) Exec(c gosql.Conn) error {",
      b!"\tconst queryString = `INSERT INTO \"test_onconflict\" AS k (",
      b!"\t\t\"key\"",
      b!"\t\t, \"name\"",
      b!"\t\t, \"fruit\"",
      b!"\t\t, \"value\"",
      b!"\t) VALUES (",
      b!"\t\tNULLIF($1, 0)::integer",
      b!"\t\t, NULLIF($2, '')::text",
      b!"\t\t, NULLIF($3, '')::text",
      b!"\t\t, NULLIF($4, 0)::double precision",
      b!"\t)",
      b!"\tON CONFLICT (lower(name), upper(fruit) COLLATE \"C\" text_pattern_ops)",
      b!"\tDO UPDATE SET",
      b!"\t\"key\" = EXCLUDED.\"key\"",
      b!"\t, \"name\" = EXCLUDED.\"name\"",
      b!"\t, \"fruit\" = EXCLUDED.\"fruit\"",
      b!"\t, \"value\" = EXCLUDED.\"value\"` // `",
      b!"",
      b!"\t_, err := c.Exec(queryString,",
      b!"\t\tq.Data.Key,",
      b!"\t\tq.Data.Name,",
      b!"\t\tq.Data.Fruit,",
      b!"\t\tq.Data.Value,",
      b!"\t)",
      b!"\treturn err",
      b!"}",
      b!""] }

/-- internal/testdata/generator/insert/onconflict_index_update_returning_slice_in.go:8 -/
def insert_onconflict_index_update_returning_slice_0 : List (FieldHdr × Ty) := [
    fld b!"Data" (.slice (.ptr c_ConflictData)) [(b!"rel", [b!"test_onconflict:k"])],
    fld b!"OnConflict" (.struct (.ofList [
    low b!"_" g_Index [(b!"sql", [b!"test_onconflict_fruit_key_name_idx"])],
    low b!"_" g_Update [(b!"sql", [b!"*"])]])),
    low b!"_" g_Return [(b!"sql", [b!"*"])]]

/-- internal/testdata/generator/insert/onconflict_index_update_returning_slice_out.go -/
def insert_onconflict_index_update_returning_slice : Golden :=
  { dir := b!"insert"
    file := b!"onconflict_index_update_returning_slice"
    targets := [(b!"InsertOnConflictIndexUpdateSliceQuery", insert_onconflict_index_update_returning_slice_0)]
    want := [
      b!"// DO NOT EDIT. This file was generated by \"github.com/frk/gosql\".",
      b!"",
      b!"package testdata",
      b!"",
      b!"import (",
      b!"\t\"github.com/frk/gosql\"",
      b!")",
      b!"",
      b!"func (q *InsertOnConflictIndexUpdateSliceQuery) Exec(c gosql.Conn) error {",
      b!"\tvar queryString = `INSERT INTO \"test_onconflict\" AS k (",
      b!"\t\t\"key\"",
      b!"\t\t, \"name\"",
      b!"\t\t, \"fruit\"",
      b!"\t\t, \"value\"",
      b!"\t) VALUES ` // `",
      b!"",
      b!"\tparams := make([]interface{}, len(q.Data)*4)",
      b!"\tfor i, v := range q.Data {",
      b!"\t\tpos := i * 4",
      b!"",
      b!"\t\tparams[pos+0] = v.Key",
      b!"\t\tparams[pos+1] = v.Name",
      b!"\t\tparams[pos+2] = v.Fruit",
      b!"\t\tparams[pos+3] = v.Value",
      b!"",
      b!"\t\tqueryString += `(NULLIF(` + gosql.OrdinalParameters[pos+0] + `, 0)::integer` +",
      b!"\t\t\t`, NULLIF(` + gosql.OrdinalParameters[pos+1] + `, '')::text` +",
      b!"\t\t\t`, NULLIF(` + gosql.OrdinalParameters[pos+2] + `, '')::text` +",
      b!"\t\t\t`, NULLIF(` + gosql.OrdinalParameters[pos+3] + `, 0)::double precision` +",
      b!"\t\t\t`),`",
      b!"\t}",
      b!"",
      b!"\tqueryString = queryString[:len(queryString)-1]",
      b!"\tqueryString += ` ON CONFLICT (lower(fruit), key, upper(name)) WHERE key < 5",
      b!"\tDO UPDATE SET",
      b!"\t\"key\" = EXCLUDED.\"key\"",
      b!"\t, \"name\" = EXCLUDED.\"name\"",
      b!"\t, \"fruit\" = EXCLUDED.\"fruit\"",
      b!"\t, \"value\" = EXCLUDED.\"value\"",
      b!"\tRETURNING",
      b!"\tk.\"id\"",
      b!"\t, COALESCE(k.\"key\", 0::integer)",
      b!"\t, COALESCE(k.\"name\", ''::text)",
      b!"\t, COALESCE(k.\"fruit\", ''::text)",
      b!"\t, COALESCE(k.\"value\", 0::double precision)` // `",
      b!"",
      b!"\trows, err := c.Query(queryString, params...)",
      b!"\tif err != nil {",
      b!"\t\treturn err",
      b!"\t}",
      b!"\tdefer rows.Close()",
      b!"",
      b!"\ti := 0",
      b!"\tfor rows.Next() {",
      b!"\t\terr := rows.Scan(",
      b!"\t\t\t&q.Data[i].Id,",
      b!"\t\t\t&q.Data[i].Key,",
      b!"\t\t\t&q.Data[i].Name,",
      b!"\t\t\t&q.Data[i].Fruit,",
      b!"\t\t\t&q.Data[i].Value,",
      b!"\t\t)",
      b!"\t\tif err != nil {",
      b!"\t\t\treturn err",
      b!"\t\t}",
      b!"",
      b!"\t\ti += 1",
      b!"\t}",
      b!"\treturn rows.Err()",
      b!"}",
      b!""] }

/-- internal/testdata/generator/insert/result_afterscan_iterator_in.go:7 -/
def insert_result_afterscan_iterator_0 : List (FieldHdr × Ty) := [
    fld b!"Users" (.slice (.ptr c_User)) [(b!"rel", [b!"test_user:u"])],
    fld b!"Result" c_User2Iterator]

/-- internal/testdata/generator/insert/result_afterscan_iterator_out.go -/
def insert_result_afterscan_iterator : Golden :=
  { dir := b!"insert"
    file := b!"result_afterscan_iterator"
    targets := [(b!"InsertResultAfterScanIteratorQuery", insert_result_afterscan_iterator_0)]
    want := [
      b!"// DO NOT EDIT. This file was generated by \"github.com/frk/gosql\".",
      b!"",
      b!"package testdata",
      b!"",
      b!"import (",
      b!"\t\"github.com/frk/gosql\"",
      b!"\t\"github.com/frk/gosql/internal/testdata/common\"",
      b!")",
      b!"",
      b!"func (q *InsertResultAfterScanIteratorQuery) Exec(c gosql.Conn) error {",
      b!"\tvar queryString = `INSERT INTO \"test_user\" AS u (",
      b!"\t\t\"id\"",
      b!"\t\t, \"email\"",
      b!"\t\t, \"full_name\"",
      b!"\t\t, \"created_at\"",
      b!"\t) VALUES ` // `",
      b!"",
      b!"\tparams := make([]interface{}, len(q.Users)*4)",
      b!"\tfor i, v := range q.Users {",
      b!"\t\tpos := i * 4",
      b!"",
      b!"\t\tparams[pos+0] = v.Id",
      b!"\t\tparams[pos+1] = v.Email",
      b!"\t\tparams[pos+2] = v.FullName",
      b!"\t\tparams[pos+3] = v.CreatedAt",
      b!"",
      b!"\t\tqueryString += `(` + gosql.OrdinalParameters[pos+0] +",
      b!"\t\t\t`, ` + gosql.OrdinalParameters[pos+1] +",
      b!"\t\t\t`, ` + gosql.OrdinalParameters[pos+2] +",
      b!"\t\t\t`, ` + gosql.OrdinalParameters[pos+3] +",
      b!"\t\t\t`),`",
      b!"\t}",
      b!"",
      b!"\tqueryString = queryString[:len(queryString)-1]",
      b!"\tqueryString += ` RETURNING",
      b!"\tu.\"id\"",
      b!"\t, u.\"email\"",
      b!"\t, u.\"full_name\"",
      b!"\t, u.\"created_at\"` // `",
      b!"",
      b!"\trows, err := c.Query(queryString, params...)",
      b!"\tif err != nil {",
      b!"\t\treturn err",
      b!"\t}",
      b!"\tdefer rows.Close()",
      b!"",
      b!"\tfor rows.Next() {",
      b!"\t\tv := new(common.User2)",
      b!"\t\terr := rows.Scan(",
      b!"\t\t\t&v.Id,",
      b!"\t\t\t&v.Email,",
      b!"\t\t\t&v.FullName,",
      b!"\t\t\t&v.CreatedAt,",
      b!"\t\t)",
      b!"\t\tif err != nil {",
      b!"\t\t\treturn err",
      b!"\t\t}",
      b!"",
      b!"\t\tv.AfterScan()",
      b!"\t\tif err := q.Result.NextUser(v); err != nil {",
      b!"\t\t\treturn err",
      b!"\t\t}",
      b!"\t}",
      b!"\treturn rows.Err()",
      b!"}",
      b!""] }

/-- internal/testdata/generator/insert/result_afterscan_single_in.go:7 -/
def insert_result_afterscan_single_0 : List (FieldHdr × Ty) := [
    fld b!"User" (.ptr c_User2) [(b!"rel", [b!"test_user:u"])],
    low b!"result" (.ptr c_User2)]

/-- internal/testdata/generator/insert/result_afterscan_single_out.go -/
def insert_result_afterscan_single : Golden :=
  { dir := b!"insert"
    file := b!"result_afterscan_single"
    targets := [(b!"InsertResultAfterScanSingleQuery", insert_result_afterscan_single_0)]
    want := [
      b!"// DO NOT EDIT. This file was generated by \"github.com/frk/gosql\".",
      b!"",
      b!"package testdata",
      b!"",
      b!"import (",
      b!"\t\"github.com/frk/gosql\"",
      b!"\t\"github.com/frk/gosql/internal/testdata/common\"",
      b!")",
      b!"",
      b!"func (q *InsertResultAfterScanSingleQuery) Exec(c gosql.Conn) error {",
      b!"\tconst queryString = `INSERT INTO \"test_user\" AS u (",
      b!"\t\t\"id\"",
      b!"\t\t, \"email\"",
      b!"\t\t, \"full_name\"",
      b!"\t\t, \"created_at\"",
      b!"\t) VALUES (",
      b!"\t\t$1",
      b!"\t\t, $2",
      b!"\t\t, $3",
      b!"\t\t, $4",
      b!"\t)",
      b!"\tRETURNING",
      b!"\tu.\"id\"",
      b!"\t, u.\"email\"",
      b!"\t, u.\"full_name\"",
      b!"\t, u.\"created_at\"` // `",
      b!"",
      b!"\trow := c.QueryRow(queryString,",
      b!"\t\tq.User.Id,",
      b!"\t\tq.User.Email,",
      b!"\t\tq.User.FullName,",
      b!"\t\tq.User.CreatedAt,",
      b!"\t)",
      b!"",
      b!"\tq.result = new(common.User2)",
      b!"\terr := row.Scan(",
      b!"\t\t&q.result.Id,",
      b!"\t\t&q.result.Email,",
      b!"\t\t&q.result.FullName,",
      b!"\t\t&q.result.CreatedAt,",
      b!"\t)",
      b!"\tif err != nil {",
      b!"\t\treturn err",
      b!"\t}",
      b!"",
      b!"\tq.result.AfterScan()",
      b!"\treturn nil",
      b!"}",
      b!""] }

/-- internal/testdata/generator/insert/result_afterscan_slice_in.go:7 -/
def insert_result_afterscan_slice_0 : List (FieldHdr × Ty) := [
    fld b!"Users" (.slice (.ptr c_User)) [(b!"rel", [b!"test_user:u"])],
    fld b!"Result" (.slice (.ptr c_User2))]

/-- internal/testdata/generator/insert/result_afterscan_slice_out.go -/
def insert_result_afterscan_slice : Golden :=
  { dir := b!"insert"
    file := b!"result_afterscan_slice"
    targets := [(b!"InsertResultAfterScanSliceQuery", insert_result_afterscan_slice_0)]
    want := [
      b!"// DO NOT EDIT. This file was generated by \"github.com/frk/gosql\".",
      b!"",
      b!"package testdata",
      b!"",
      b!"import (",
      b!"\t\"github.com/frk/gosql\"",
      b!"\t\"github.com/frk/gosql/internal/testdata/common\"",
      b!")",
      b!"",
      b!"func (q *InsertResultAfterScanSliceQuery) Exec(c gosql.Conn) error {",
      b!"\tvar queryString = `INSERT INTO \"test_user\" AS u (",
      b!"\t\t\"id\"",
      b!"\t\t, \"email\"",
      b!"\t\t, \"full_name\"",
      b!"\t\t, \"created_at\"",
      b!"\t) VALUES ` // `",
      b!"",
      b!"\tparams := make([]interface{}, len(q.Users)*4)",
      b!"\tfor i, v := range q.Users {",
      b!"\t\tpos := i * 4",
      b!"",
      b!"\t\tparams[pos+0] = v.Id",
      b!"\t\tparams[pos+1] = v.Email",
      b!"\t\tparams[pos+2] = v.FullName",
      b!"\t\tparams[pos+3] = v.CreatedAt",
      b!"",
      b!"\t\tqueryString += `(` + gosql.OrdinalParameters[pos+0] +",
      b!"\t\t\t`, ` + gosql.OrdinalParameters[pos+1] +",
      b!"\t\t\t`, ` + gosql.OrdinalParameters[pos+2] +",
      b!"\t\t\t`, ` + gosql.OrdinalParameters[pos+3] +",
      b!"\t\t\t`),`",
      b!"\t}",
      b!"",
      b!"\tqueryString = queryString[:len(queryString)-1]",
      b!"\tqueryString += ` RETURNING",
      b!"\tu.\"id\"",
      b!"\t, u.\"email\"",
      b!"\t, u.\"full_name\"",
      b!"\t, u.\"created_at\"` // `",
      b!"",
      b!"\trows, err := c.Query(queryString, params...)",
      b!"\tif err != nil {",
      b!"\t\treturn err",
      b!"\t}",
      b!"\tdefer rows.Close()",
      b!"",
      b!"\tfor rows.Next() {",
      b!"\t\tv := new(common.User2)",
      b!"\t\terr := rows.Scan(",
      b!"\t\t\t&v.Id,",
      b!"\t\t\t&v.Email,",
      b!"\t\t\t&v.FullName,",
      b!"\t\t\t&v.CreatedAt,",
      b!"\t\t)",
      b!"\t\tif err != nil {",
      b!"\t\t\treturn err",
      b!"\t\t}",
      b!"",
      b!"\t\tv.AfterScan()",
      b!"\t\tq.Result = append(q.Result, v)",
      b!"\t}",
      b!"\treturn rows.Err()",
      b!"}",
      b!""] }

/-- internal/testdata/generator/insert/result_basic_iterator_in.go:7 -/
def insert_result_basic_iterator_0 : List (FieldHdr × Ty) := [
    fld b!"Users" (.slice (.ptr c_User)) [(b!"rel", [b!"test_user:u"])],
    fld b!"Result" c_UserIterator]

/-- internal/testdata/generator/insert/result_basic_iterator_out.go -/
def insert_result_basic_iterator : Golden :=
  { dir := b!"insert"
    file := b!"result_basic_iterator"
    targets := [(b!"InsertResultBasicIteratorQuery", insert_result_basic_iterator_0)]
    want := [
      b!"// DO NOT EDIT. This file was generated by \"github.com/frk/gosql\".",
      b!"",
      b!"package testdata",
      b!"",
      b!"import (",
      b!"\t\"github.com/frk/gosql\"",
      b!"\t\"github.com/frk/gosql/internal/testdata/common\"",
      b!")",
      b!"",
      b!"func (q *InsertResultBasicIteratorQuery) Exec(c gosql.Conn) error {",
      b!"\tvar queryString = `INSERT INTO \"test_user\" AS u (",
      b!"\t\t\"id\"",
      b!"\t\t, \"email\"",
      b!"\t\t, \"full_name\"",
      b!"\t\t, \"created_at\"",
      b!"\t) VALUES ` // `",
      b!"",
      b!"\tparams := make([]interface{}, len(q.Users)*4)",
      b!"\tfor i, v := range q.Users {",
      b!"\t\tpos := i * 4",
      b!"",
      b!"\t\tparams[pos+0] = v.Id",
      b!"\t\tparams[pos+1] = v.Email",
      b!"\t\tparams[pos+2] = v.FullName",
      b!"\t\tparams[pos+3] = v.CreatedAt",
      b!"",
      b!"\t\tqueryString += `(` + gosql.OrdinalParameters[pos+0] +",
      b!"\t\t\t`, ` + gosql.OrdinalParameters[pos+1] +",
      b!"\t\t\t`, ` + gosql.OrdinalParameters[pos+2] +",
      b!"\t\t\t`, ` + gosql.OrdinalParameters[pos+3] +",
      b!"\t\t\t`),`",
      b!"\t}",
      b!"",
      b!"\tqueryString = queryString[:len(queryString)-1]",
      b!"\tqueryString += ` RETURNING",
      b!"\tu.\"id\"",
      b!"\t, u.\"email\"",
      b!"\t, u.\"full_name\"",
      b!"\t, u.\"created_at\"` // `",
      b!"",
      b!"\trows, err := c.Query(queryString, params...)",
      b!"\tif err != nil {",
      b!"\t\treturn err",
      b!"\t}",
      b!"\tdefer rows.Close()",
      b!"",
      b!"\tfor rows.Next() {",
      b!"\t\tv := new(common.User)",
      b!"\t\terr := rows.Scan(",
      b!"\t\t\t&v.Id,",
      b!"\t\t\t&v.Email,",
      b!"\t\t\t&v.FullName,",
      b!"\t\t\t&v.CreatedAt,",
      b!"\t\t)",
      b!"\t\tif err != nil {",
      b!"\t\t\treturn err",
      b!"\t\t}",
      b!"",
      b!"\t\tif err := q.Result.NextUser(v); err != nil {",
      b!"\t\t\treturn err",
      b!"\t\t}",
      b!"\t}",
      b!"\treturn rows.Err()",
      b!"}",
      b!""] }

/-- internal/testdata/generator/insert/result_basic_single_in.go:7 -/
def insert_result_basic_single_0 : List (FieldHdr × Ty) := [
    fld b!"User" (.ptr c_User3) [(b!"rel", [b!"test_user:u"])],
    fld b!"Result" (.struct (.ofList [
    fld b!"Id" (.basic .int b!"int") [(b!"sql", [b!"id"])]]))]

/-- internal/testdata/generator/insert/result_basic_single_out.go -/
def insert_result_basic_single : Golden :=
  { dir := b!"insert"
    file := b!"result_basic_single"
    targets := [(b!"InsertResultBasicSingleQuery", insert_result_basic_single_0)]
    want := [
      b!"// DO NOT EDIT. This file was generated by \"github.com/frk/gosql\".",
      b!"",
      b!"package testdata",
      b!"",
      b!"import (",
      b!"\t\"github.com/frk/gosql\"",
      b!")",
      b!"",
      b!"func (q *InsertResultBasicSingleQuery) Exec(c gosql.Conn) error {",
      b!"\tconst queryString = `INSERT INTO \"test_user\" AS u (",
      b!"\t\t\"email\"",
      b!"\t\t, \"password\"",
      b!"\t\t, \"created_at\"",
      b!"\t\t, \"updated_at\"",
      b!"\t) VALUES (",
      b!"\t\t$1",
      b!"\t\t, $2",
      b!"\t\t, $3",
      b!"\t\t, $4",
      b!"\t)",
      b!"\tRETURNING u.\"id\"` // `",
      b!"",
      b!"\trow := c.QueryRow(queryString,",
      b!"\t\tq.User.Email,",
      b!"\t\tq.User.Password,",
      b!"\t\tq.User.CreatedAt,",
      b!"\t\tq.User.UpdatedAt,",
      b!"\t)",
      b!"\treturn row.Scan(&q.Result.Id)",
      b!"}",
      b!""] }

/-- internal/testdata/generator/insert/result_basic_slice_in.go:7 -/
def insert_result_basic_slice_0 : List (FieldHdr × Ty) := [
    fld b!"Users" (.slice (.ptr c_User)) [(b!"rel", [b!"test_user:u"])],
    fld b!"Result" (.slice (.ptr c_User))]

/-- internal/testdata/generator/insert/result_basic_slice_out.go -/
def insert_result_basic_slice : Golden :=
  { dir := b!"insert"
    file := b!"result_basic_slice"
    targets := [(b!"InsertResultBasicSliceQuery", insert_result_basic_slice_0)]
    want := [
      b!"// DO NOT EDIT. This file was generated by \"github.com/frk/gosql\".",
      b!"",
      b!"package testdata",
      b!"",
      b!"import (",
      b!"\t\"github.com/frk/gosql\"",
      b!"\t\"github.com/frk/gosql/internal/testdata/common\"",
      b!")",
      b!"",
      b!"func (q *InsertResultBasicSliceQuery) Exec(c gosql.Conn) error {",
      b!"\tvar queryString = `INSERT INTO \"test_user\" AS u (",
      b!"\t\t\"id\"",
      b!"\t\t, \"email\"",
      b!"\t\t, \"full_name\"",
      b!"\t\t, \"created_at\"",
      b!"\t) VALUES ` // `",
      b!"",
      b!"\tparams := make([]interface{}, len(q.Users)*4)",
      b!"\tfor i, v := range q.Users {",
      b!"\t\tpos := i * 4",
      b!"",
      b!"\t\tparams[pos+0] = v.Id",
      b!"\t\tparams[pos+1] = v.Email",
      b!"\t\tparams[pos+2] = v.FullName",
      b!"\t\tparams[pos+3] = v.CreatedAt",
      b!"",
      b!"\t\tqueryString += `(` + gosql.OrdinalParameters[pos+0] +",
      b!"\t\t\t`, ` + gosql.OrdinalParameters[pos+1] +",
      b!"\t\t\t`, ` + gosql.OrdinalParameters[pos+2] +",
      b!"\t\t\t`, ` + gosql.OrdinalParameters[pos+3] +",
      b!"\t\t\t`),`",
      b!"\t}",
      b!"",
      b!"\tqueryString = queryString[:len(queryString)-1]",
      b!"\tqueryString += ` RETURNING",
      b!"\tu.\"id\"",
      b!"\t, u.\"email\"",
      b!"\t, u.\"full_name\"",
      b!"\t, u.\"created_at\"` // `",
      b!"",
      b!"\trows, err := c.Query(queryString, params...)",
      b!"\tif err != nil {",
      b!"\t\treturn err",
      b!"\t}",
      b!"\tdefer rows.Close()",
      b!"",
      b!"\tfor rows.Next() {",
      b!"\t\tv := new(common.User)",
      b!"\t\terr := rows.Scan(",
      b!"\t\t\t&v.Id,",
      b!"\t\t\t&v.Email,",
      b!"\t\t\t&v.FullName,",
      b!"\t\t\t&v.CreatedAt,",
      b!"\t\t)",
      b!"\t\tif err != nil {",
      b!"\t\t\treturn err",
      b!"\t\t}",
      b!"",
      b!"\t\tq.Result = append(q.Result, v)",
      b!"\t}",
      b!"\treturn rows.Err()",
      b!"}",
      b!""] }

/-- internal/testdata/generator/insert/result_errorhandler_iterator_in.go:7 -/
def insert_result_errorhandler_iterator_0 : List (FieldHdr × Ty) := [
    fld b!"Users" (.slice (.ptr c_User)) [(b!"rel", [b!"test_user:u"])],
    low b!"result" c_User2Iterator,
    low b!"erh" c_ErrorHandler]

/-- internal/testdata/generator/insert/result_errorhandler_iterator_out.go -/
def insert_result_errorhandler_iterator : Golden :=
  { dir := b!"insert"
    file := b!"result_errorhandler_iterator"
    targets := [(b!"InsertResultErrorHandlerIteratorQuery", insert_result_errorhandler_iterator_0)]
    want := [
      b!"// DO NOT EDIT. This file was generated by \"github.com/frk/gosql\".",
      b!"",
      b!"package testdata",
      b!"",
      b!"import (",
      b!"\t\"github.com/frk/gosql\"",
      b!"\t\"github.com/frk/gosql/internal/testdata/common\"",
      b!")",
      b!"",
      b!"func (q *InsertResultErrorHandlerIteratorQuery) Exec(c gosql.Conn) error {",
      b!"\tvar queryString = `INSERT INTO \"test_user\" AS u (",
      b!"\t\t\"id\"",
      b!"\t\t, \"email\"",
      b!"\t\t, \"full_name\"",
      b!"\t\t, \"created_at\"",
      b!"\t) VALUES ` // `",
      b!"",
      b!"\tparams := make([]interface{}, len(q.Users)*4)",
      b!"\tfor i, v := range q.Users {",
      b!"\t\tpos := i * 4",
      b!"",
      b!"\t\tparams[pos+0] = v.Id",
      b!"\t\tparams[pos+1] = v.Email",
      b!"\t\tparams[pos+2] = v.FullName",
      b!"\t\tparams[pos+3] = v.CreatedAt",
      b!"",
      b!"\t\tqueryString += `(` + gosql.OrdinalParameters[pos+0] +",
      b!"\t\t\t`, ` + gosql.OrdinalParameters[pos+1] +",
      b!"\t\t\t`, ` + gosql.OrdinalParameters[pos+2] +",
      b!"\t\t\t`, ` + gosql.OrdinalParameters[pos+3] +",
      b!"\t\t\t`),`",
      b!"\t}",
      b!"",
      b!"\tqueryString = queryString[:len(queryString)-1]",
      b!"\tqueryString += ` RETURNING",
      b!"\tu.\"id\"",
      b!"\t, u.\"email\"",
      b!"\t, u.\"full_name\"",
      b!"\t, u.\"created_at\"` // `",
      b!"",
      b!"\trows, err := c.Query(queryString, params...)",
      b!"\tif err != nil {",
      b!"\t\treturn q.erh.HandleError(err)",
      b!"\t}",
      b!"\tdefer rows.Close()",
      b!"",
      b!"\tfor rows.Next() {",
      b!"\t\tv := new(common.User2)",
      b!"\t\terr := rows.Scan(",
      b!"\t\t\t&v.Id,",
      b!"\t\t\t&v.Email,",
      b!"\t\t\t&v.FullName,",
      b!"\t\t\t&v.CreatedAt,",
      b!"\t\t)",
      b!"\t\tif err != nil {",
      b!"\t\t\treturn q.erh.HandleError(err)",
      b!"\t\t}",
      b!"",
      b!"\t\tv.AfterScan()",
      b!"\t\tif err := q.result.NextUser(v); err != nil {",
      b!"\t\t\treturn q.erh.HandleError(err)",
      b!"\t\t}",
      b!"\t}",
      b!"\treturn q.erh.HandleError(rows.Err())",
      b!"}",
      b!""] }

/-- internal/testdata/generator/insert/result_errorhandler_single_in.go:7 -/
def insert_result_errorhandler_single_0 : List (FieldHdr × Ty) := [
    fld b!"User" (.ptr c_User) [(b!"rel", [b!"test_user:u"])],
    low b!"result" (.ptr c_User),
    low b!"erh" c_ErrorHandler]

/-- internal/testdata/generator/insert/result_errorhandler_single_out.go -/
def insert_result_errorhandler_single : Golden :=
  { dir := b!"insert"
    file := b!"result_errorhandler_single"
    targets := [(b!"InsertResultErrorHandlerSingleQuery", insert_result_errorhandler_single_0)]
    want := [
      b!"// DO NOT EDIT. This file was generated by \"github.com/frk/gosql\".",
      b!"",
      b!"package testdata",
      b!"",
      b!"import (",
      b!"\t\"github.com/frk/gosql\"",
      b!"\t\"github.com/frk/gosql/internal/testdata/common\"",
      b!")",
      b!"",
      b!"func (q *InsertResultErrorHandlerSingleQuery) Exec(c gosql.Conn) error {",
      b!"\tconst queryString = `INSERT INTO \"test_user\" AS u (",
      b!"\t\t\"id\"",
      b!"\t\t, \"email\"",
      b!"\t\t, \"full_name\"",
      b!"\t\t, \"created_at\"",
      b!"\t) VALUES (",
      b!"\t\t$1",
      b!"\t\t, $2",
      b!"\t\t, $3",
      b!"\t\t, $4",
      b!"\t)",
      b!"\tRETURNING",
      b!"\tu.\"id\"",
      b!"\t, u.\"email\"",
      b!"\t, u.\"full_name\"",
      b!"\t, u.\"created_at\"` // `",
      b!"",
      b!"\trow := c.QueryRow(queryString,",
      b!"\t\tq.User.Id,",
      b!"\t\tq.User.Email,",
      b!"\t\tq.User.FullName,",
      b!"\t\tq.User.CreatedAt,",
      b!"\t)",
      b!"",
      b!"\tq.result = new(common.User)",
      b!"\treturn q.erh.HandleError(row.Scan(",
      b!"\t\t&q.result.Id,",
      b!"\t\t&q.result.Email,",
      b!"\t\t&q.result.FullName,",
      b!"\t\t&q.result.CreatedAt,",
      b!"\t))",
      b!"}",
      b!""] }

/-- internal/testdata/generator/insert/result_errorinfohandler_iterator_in.go:7 -/
def insert_result_errorinfohandler_iterator_0 : List (FieldHdr × Ty) := [
    fld b!"Users" (.slice (.ptr c_User)) [(b!"rel", [b!"test_user:u"])],
    low b!"result" c_User2Iterator,
    low b!"erh" c_ErrorInfoHandler]

/-- internal/testdata/generator/insert/result_errorinfohandler_iterator_out.go -/
def insert_result_errorinfohandler_iterator : Golden :=
  { dir := b!"insert"
    file := b!"result_errorinfohandler_iterator"
    targets := [(b!"InsertResultErrorInfoHandlerIteratorQuery", insert_result_errorinfohandler_iterator_0)]
    want := [
      b!"// DO NOT EDIT. This file was generated by \"github.com/frk/gosql\".",
      b!"",
      b!"package testdata",
      b!"",
      b!"import (",
      b!"\t\"github.com/frk/gosql\"",
      b!"\t\"github.com/frk/gosql/internal/testdata/common\"",
      b!")",
      b!"",
      b!"func (q *InsertResultErrorInfoHandlerIteratorQuery) Exec(c gosql.Conn) error {",
      b!"\tvar queryString = `INSERT INTO \"test_user\" AS u (",
      b!"\t\t\"id\"",
      b!"\t\t, \"email\"",
      b!"\t\t, \"full_name\"",
      b!"\t\t, \"created_at\"",
      b!"\t) VALUES ` // `",
      b!"",
      b!"\tparams := make([]interface{}, len(q.Users)*4)",
      b!"\tfor i, v := range q.Users {",
      b!"\t\tpos := i * 4",
      b!"",
      b!"\t\tparams[pos+0] = v.Id",
      b!"\t\tparams[pos+1] = v.Email",
      b!"\t\tparams[pos+2] = v.FullName",
      b!"\t\tparams[pos+3] = v.CreatedAt",
      b!"",
      b!"\t\tqueryString += `(` + gosql.OrdinalParameters[pos+0] +",
      b!"\t\t\t`, ` + gosql.OrdinalParameters[pos+1] +",
      b!"\t\t\t`, ` + gosql.OrdinalParameters[pos+2] +",
      b!"\t\t\t`, ` + gosql.OrdinalParameters[pos+3] +",
      b!"\t\t\t`),`",
      b!"\t}",
      b!"",
      b!"\tqueryString = queryString[:len(queryString)-1]",
      b!"\tqueryString += ` RETURNING",
      b!"\tu.\"id\"",
      b!"\t, u.\"email\"",
      b!"\t, u.\"full_name\"",
      b!"\t, u.\"created_at\"` // `",
      b!"",
      b!"\trows, err := c.Query(queryString, params...)",
      b!"\tif err != nil {",
      b!"\t\treturn q.erh.HandleErrorInfo(&gosql.ErrorInfo{Error: err, QueryString: queryString, QueryKind: \"Insert\", QueryName: \"InsertResultErrorInfoHandlerIteratorQuery\", QueryValue: q})",
      b!"\t}",
      b!"\tdefer rows.Close()",
      b!"",
      b!"\tfor rows.Next() {",
      b!"\t\tv := new(common.User2)",
      b!"\t\terr := rows.Scan(",
      b!"\t\t\t&v.Id,",
      b!"\t\t\t&v.Email,",
      b!"\t\t\t&v.FullName,",
      b!"\t\t\t&v.CreatedAt,",
      b!"\t\t)",
      b!"\t\tif err != nil {",
      b!"\t\t\treturn q.erh.HandleErrorInfo(&gosql.ErrorInfo{Error: err, QueryString: queryString, QueryKind: \"Insert\", QueryName: \"InsertResultErrorInfoHandlerIteratorQuery\", QueryValue: q})",
      b!"\t\t}",
      b!"",
      b!"\t\tv.AfterScan()",
      b!"\t\tif err := q.result.NextUser(v); err != nil {",
      b!"\t\t\treturn q.erh.HandleErrorInfo(&gosql.ErrorInfo{Error: err, QueryString: queryString, QueryKind: \"Insert\", QueryName: \"InsertResultErrorInfoHandlerIteratorQuery\", QueryValue: q})",
      b!"\t\t}",
      b!"\t}",
      b!"\tif err := rows.Err(); err != nil {",
      b!"\t\treturn q.erh.HandleErrorInfo(&gosql.ErrorInfo{Error: err, QueryString: queryString, QueryKind: \"Insert\", QueryName: \"InsertResultErrorInfoHandlerIteratorQuery\", QueryValue: q})",
      b!"\t}",
      b!"\treturn nil",
      b!"}",
      b!""] }

/-- internal/testdata/generator/insert/result_errorinfohandler_single_in.go:7 -/
def insert_result_errorinfohandler_single_0 : List (FieldHdr × Ty) := [
    fld b!"User" (.ptr c_User2) [(b!"rel", [b!"test_user:u"])],
    fld b!"Result" (.ptr c_User2),
    low b!"erh" c_ErrorInfoHandler]

/-- internal/testdata/generator/insert/result_errorinfohandler_single_out.go -/
def insert_result_errorinfohandler_single : Golden :=
  { dir := b!"insert"
    file := b!"result_errorinfohandler_single"
    targets := [(b!"InsertResultErrorInfoHandlerSingleQuery", insert_result_errorinfohandler_single_0)]
    want := [
      b!"// DO NOT EDIT. This file was generated by \"github.com/frk/gosql\".",
      b!"",
      b!"package testdata",
      b!"",
      b!"import (",
      b!"\t\"github.com/frk/gosql\"",
      b!"\t\"github.com/frk/gosql/internal/testdata/common\"",
      b!")",
      b!"",
      b!"func (q *InsertResultErrorInfoHandlerSingleQuery) Exec(c gosql.Conn) error {",
      b!"\tconst queryString = `INSERT INTO \"test_user\" AS u (",
      b!"\t\t\"id\"",
      b!"\t\t, \"email\"",
      b!"\t\t, \"full_name\"",
      b!"\t\t, \"created_at\"",
      b!"\t) VALUES (",
      b!"\t\t$1",
      b!"\t\t, $2",
      b!"\t\t, $3",
      b!"\t\t, $4",
      b!"\t)",
      b!"\tRETURNING",
      b!"\tu.\"id\"",
      b!"\t, u.\"email\"",
      b!"\t, u.\"full_name\"",
      b!"\t, u.\"created_at\"` // `",
      b!"",
      b!"\trow := c.QueryRow(queryString,",
      b!"\t\tq.User.Id,",
      b!"\t\tq.User.Email,",
      b!"\t\tq.User.FullName,",
      b!"\t\tq.User.CreatedAt,",
      b!"\t)",
      b!"",
      b!"\tq.Result = new(common.User2)",
      b!"\terr := row.Scan(",
      b!"\t\t&q.Result.Id,",
      b!"\t\t&q.Result.Email,",
      b!"\t\t&q.Result.FullName,",
      b!"\t\t&q.Result.CreatedAt,",
      b!"\t)",
      b!"\tif err != nil {",
      b!"\t\treturn q.erh.HandleErrorInfo(&gosql.ErrorInfo{Error: err, QueryString: queryString, QueryKind: \"Insert\", QueryName: \"InsertResultErrorInfoHandlerSingleQuery\", QueryValue: q})",
      b!"\t}",
      b!"",
      b!"\tq.Result.AfterScan()",
      b!"\treturn nil",
      b!"}",
      b!""] }

/-- internal/testdata/generator/insert/result_json_single_in.go:7 -/
def insert_result_json_single_0 : List (FieldHdr × Ty) := [
    fld b!"User" (.ptr c_User5) [(b!"rel", [b!"test_user:u"])],
    fld b!"Result" (.ptr c_User5)]

/-- internal/testdata/generator/insert/result_json_single_out.go -/
def insert_result_json_single : Golden :=
  { dir := b!"insert"
    file := b!"result_json_single"
    targets := [(b!"InsertResultJSONSingleQuery", insert_result_json_single_0)]
    want := [
      b!"// DO NOT EDIT. This file was generated by \"github.com/frk/gosql\".",
      b!"",
      b!"package testdata",
      b!"",
      b!"import (",
      b!"\t\"github.com/frk/gosql\"",
      b!"\t\"github.com/frk/gosql/internal/testdata/common\"",
      b!"\t\"github.com/frk/gosql/pgsql\"",
      b!")",
      b!"",
      b!"func (q *InsertResultJSONSingleQuery) Exec(c gosql.Conn) error {",
      b!"\tconst queryString = `INSERT INTO \"test_user\" AS u (",
      b!"\t\t\"email\"",
      b!"\t\t, \"full_name\"",
      b!"\t\t, \"is_active\"",
      b!"\t\t, \"metadata1\"",
      b!"\t\t, \"metadata2\"",
      b!"\t\t, \"created_at\"",
      b!"\t\t, \"updated_at\"",
      b!"\t) VALUES (",
      b!"\t\t$1",
      b!"\t\t, $2",
      b!"\t\t, $3",
      b!"\t\t, $4",
      b!"\t\t, $5",
      b!"\t\t, $6",
      b!"\t\t, $7",
      b!"\t)",
      b!"\tRETURNING",
      b!"\tu.\"id\"",
      b!"\t, u.\"email\"",
      b!"\t, u.\"full_name\"",
      b!"\t, u.\"is_active\"",
      b!"\t, u.\"metadata1\"",
      b!"\t, u.\"metadata2\"",
      b!"\t, u.\"created_at\"",
      b!"\t, u.\"updated_at\"` // `",
      b!"",
      b!"\trow := c.QueryRow(queryString,",
      b!"\t\tq.User.Email,",
      b!"\t\tq.User.FullName,",
      b!"\t\tq.User.IsActive,",
      b!"\t\tpgsql.JSON(q.User.Metadata1),",
      b!"\t\tpgsql.JSON(q.User.Metadata2),",
      b!"\t\tq.User.CreatedAt,",
      b!"\t\tq.User.UpdatedAt,",
      b!"\t)",
      b!"",
      b!"\tq.Result = new(common.User5)",
      b!"\treturn row.Scan(",
      b!"\t\t&q.Result.Id,",
      b!"\t\t&q.Result.Email,",
      b!"\t\t&q.Result.FullName,",
      b!"\t\t&q.Result.IsActive,",
      b!"\t\tpgsql.JSON(&q.Result.Metadata1),",
      b!"\t\tpgsql.JSON(&q.Result.Metadata2),",
      b!"\t\t&q.Result.CreatedAt,",
      b!"\t\t&q.Result.UpdatedAt,",
      b!"\t)",
      b!"}",
      b!""] }

/-- internal/testdata/generator/insert/result_json_slice_in.go:7 -/
def insert_result_json_slice_0 : List (FieldHdr × Ty) := [
    fld b!"Users" (.slice (.ptr c_User5)) [(b!"rel", [b!"test_user:u"])],
    fld b!"Result" (.slice (.ptr c_User5))]

/-- internal/testdata/generator/insert/result_json_slice_out.go -/
def insert_result_json_slice : Golden :=
  { dir := b!"insert"
    file := b!"result_json_slice"
    targets := [(b!"InsertResultJSONSliceQuery", insert_result_json_slice_0)]
    want := [
      b!"// DO NOT EDIT. This file was generated by \"github.com/frk/gosql\".",
      b!"",
      b!"package testdata",
      b!"",
      b!"import (",
      b!"\t\"github.com/frk/gosql\"",
      b!"\t\"github.com/frk/gosql/internal/testdata/common\"",
      b!"\t\"github.com/frk/gosql/pgsql\"",
      b!")",
      b!"",
      b!"func (q *InsertResultJSONSliceQuery) Exec(c gosql.Conn) error {",
      b!"\tvar queryString = `INSERT INTO \"test_user\" AS u (",
      b!"\t\t\"email\"",
      b!"\t\t, \"full_name\"",
      b!"\t\t, \"is_active\"",
      b!"\t\t, \"metadata1\"",
      b!"\t\t, \"metadata2\"",
      b!"\t\t, \"created_at\"",
      b!"\t\t, \"updated_at\"",
      b!"\t) VALUES ` // `",
      b!"",
      b!"\tparams := make([]interface{}, len(q.Users)*7)",
      b!"\tfor i, v := range q.Users {",
      b!"\t\tpos := i * 7",
      b!"",
      b!"\t\tparams[pos+0] = v.Email",
      b!"\t\tparams[pos+1] = v.FullName",
      b!"\t\tparams[pos+2] = v.IsActive",
      b!"\t\tparams[pos+3] = pgsql.JSON(v.Metadata1)",
      b!"\t\tparams[pos+4] = pgsql.JSON(v.Metadata2)",
      b!"\t\tparams[pos+5] = v.CreatedAt",
      b!"\t\tparams[pos+6] = v.UpdatedAt",
      b!"",
      b!"\t\tqueryString += `(` + gosql.OrdinalParameters[pos+0] +",
      b!"\t\t\t`, ` + gosql.OrdinalParameters[pos+1] +",
      b!"\t\t\t`, ` + gosql.OrdinalParameters[pos+2] +",
      b!"\t\t\t`, ` + gosql.OrdinalParameters[pos+3] +",
      b!"\t\t\t`, ` + gosql.OrdinalParameters[pos+4] +",
      b!"\t\t\t`, ` + gosql.OrdinalParameters[pos+5] +",
      b!"\t\t\t`, ` + gosql.OrdinalParameters[pos+6] +",
      b!"\t\t\t`),`",
      b!"\t}",
      b!"",
      b!"\tqueryString = queryString[:len(queryString)-1]",
      b!"\tqueryString += ` RETURNING",
      b!"\tu.\"id\"",
      b!"\t, u.\"email\"",
      b!"\t, u.\"full_name\"",
      b!"\t, u.\"is_active\"",
      b!"\t, u.\"metadata1\"",
      b!"\t, u.\"metadata2\"",
      b!"\t, u.\"created_at\"",
      b!"\t, u.\"updated_at\"` // `",
      b!"",
      b!"\trows, err := c.Query(queryString, params...)",
      b!"\tif err != nil {",
      b!"\t\treturn err",
      b!"\t}",
      b!"\tdefer rows.Close()",
      b!"",
      b!"\tfor rows.Next() {",
      b!"\t\tv := new(common.User5)",
      b!"\t\terr := rows.Scan(",
      b!"\t\t\t&v.Id,",
      b!"\t\t\t&v.Email,",
      b!"\t\t\t&v.FullName,",
      b!"\t\t\t&v.IsActive,",
      b!"\t\t\tpgsql.JSON(&v.Metadata1),",
      b!"\t\t\tpgsql.JSON(&v.Metadata2),",
      b!"\t\t\t&v.CreatedAt,",
      b!"\t\t\t&v.UpdatedAt,",
      b!"\t\t)",
      b!"\t\tif err != nil {",
      b!"\t\t\treturn err",
      b!"\t\t}",
      b!"",
      b!"\t\tq.Result = append(q.Result, v)",
      b!"\t}",
      b!"\treturn rows.Err()",
      b!"}",
      b!""] }

/-- internal/testdata/generator/insert/returning_afterscan_single_in.go:8 -/
def insert_returning_afterscan_single_0 : List (FieldHdr × Ty) := [
    fld b!"User" (.ptr c_User2) [(b!"rel", [b!"test_user:u"])],
    low b!"_" g_Return [(b!"sql", [b!"*"])]]

/-- internal/testdata/generator/insert/returning_afterscan_single_out.go -/
def insert_returning_afterscan_single : Golden :=
  { dir := b!"insert"
    file := b!"returning_afterscan_single"
    targets := [(b!"InsertReturningAfterScanSingleQuery", insert_returning_afterscan_single_0)]
    want := [
      b!"// DO NOT EDIT. This file was generated by \"github.com/frk/gosql\".",
      b!"",
      b!"package testdata",
      b!"",
      b!"import (",
      b!"\t\"github.com/frk/gosql\"",
      b!")",
      b!"",
      b!"func (q *InsertReturningAfterScanSingleQuery) Exec(c gosql.Conn) error {",
      b!"\tconst queryString = `INSERT INTO \"test_user\" AS u (",
      b!"\t\t\"id\"",
      b!"\t\t, \"email\"",
      b!"\t\t, \"full_name\"",
      b!"\t\t, \"created_at\"",
      b!"\t) VALUES (",
      b!"\t\t$1",
      b!"\t\t, $2",
      b!"\t\t, $3",
      b!"\t\t, $4",
      b!"\t)",
      b!"\tRETURNING",
      b!"\tu.\"id\"",
      b!"\t, u.\"email\"",
      b!"\t, u.\"full_name\"",
      b!"\t, u.\"created_at\"` // `",
      b!"",
      b!"\trow := c.QueryRow(queryString,",
      b!"\t\tq.User.Id,",
      b!"\t\tq.User.Email,",
      b!"\t\tq.User.FullName,",
      b!"\t\tq.User.CreatedAt,",
      b!"\t)",
      b!"\terr := row.Scan(",
      b!"\t\t&q.User.Id,",
      b!"\t\t&q.User.Email,",
      b!"\t\t&q.User.FullName,",
      b!"\t\t&q.User.CreatedAt,",
      b!"\t)",
      b!"\tif err != nil {",
      b!"\t\treturn err",
      b!"\t}",
      b!"",
      b!"\tq.User.AfterScan()",
      b!"\treturn nil",
      b!"}",
      b!""] }

/-- internal/testdata/generator/insert/returning_afterscan_slice_in.go:8 -/
def insert_returning_afterscan_slice_0 : List (FieldHdr × Ty) := [
    fld b!"Users" (.slice (.ptr c_User2)) [(b!"rel", [b!"test_user:u"])],
    low b!"_" g_Return [(b!"sql", [b!"*"])]]

/-- internal/testdata/generator/insert/returning_afterscan_slice_out.go -/
def insert_returning_afterscan_slice : Golden :=
  { dir := b!"insert"
    file := b!"returning_afterscan_slice"
    targets := [(b!"InsertReturningAfterScanSliceQuery", insert_returning_afterscan_slice_0)]
    want := [
      b!"// DO NOT EDIT. This file was generated by \"github.com/frk/gosql\".",
      b!"",
      b!"package testdata",
      b!"",
      b!"import (",
      b!"\t\"github.com/frk/gosql\"",
      b!")",
      b!"",
      b!"func (q *InsertReturningAfterScanSliceQuery) Exec(c gosql.Conn) error {",
      b!"\tvar queryString = `INSERT INTO \"test_user\" AS u (",
      b!"\t\t\"id\"",
      b!"\t\t, \"email\"",
      b!"\t\t, \"full_name\"",
      b!"\t\t, \"created_at\"",
      b!"\t) VALUES ` // `",
      b!"",
      b!"\tparams := make([]interface{}, len(q.Users)*4)",
      b!"\tfor i, v := range q.Users {",
      b!"\t\tpos := i * 4",
      b!"",
      b!"\t\tparams[pos+0] = v.Id",
      b!"\t\tparams[pos+1] = v.Email",
      b!"\t\tparams[pos+2] = v.FullName",
      b!"\t\tparams[pos+3] = v.CreatedAt",
      b!"",
      b!"\t\tqueryString += `(` + gosql.OrdinalParameters[pos+0] +",
      b!"\t\t\t`, ` + gosql.OrdinalParameters[pos+1] +",
      b!"\t\t\t`, ` + gosql.OrdinalParameters[pos+2] +",
      b!"\t\t\t`, ` + gosql.OrdinalParameters[pos+3] +",
      b!"\t\t\t`),`",
      b!"\t}",
      b!"",
      b!"\tqueryString = queryString[:len(queryString)-1]",
      b!"\tqueryString += ` RETURNING",
      b!"\tu.\"id\"",
      b!"\t, u.\"email\"",
      b!"\t, u.\"full_name\"",
      b!"\t, u.\"created_at\"` // `",
      b!"",
      b!"\trows, err := c.Query(queryString, params...)",
      b!"\tif err != nil {",
      b!"\t\treturn err",
      b!"\t}",
      b!"\tdefer rows.Close()",
      b!"",
      b!"\ti := 0",
      b!"\tfor rows.Next() {",
      b!"\t\terr := rows.Scan(",
      b!"\t\t\t&q.Users[i].Id,",
      b!"\t\t\t&q.Users[i].Email,",
      b!"\t\t\t&q.Users[i].FullName,",
      b!"\t\t\t&q.Users[i].CreatedAt,",
      b!"\t\t)",
      b!"\t\tif err != nil {",
      b!"\t\t\treturn err",
      b!"\t\t}",
      b!"",
      b!"\t\tq.Users[i].AfterScan()",
      b!"\t\ti += 1",
      b!"\t}",
      b!"\treturn rows.Err()",
      b!"}",
      b!""] }

/-- internal/testdata/generator/insert/returning_all_json_single_in.go:8 -/
def insert_returning_all_json_single_0 : List (FieldHdr × Ty) := [
    fld b!"User" (.ptr c_User5) [(b!"rel", [b!"test_user:u"])],
    low b!"_" g_Return [(b!"sql", [b!"*"])]]

/-- internal/testdata/generator/insert/returning_all_json_single_out.go -/
def insert_returning_all_json_single : Golden :=
  { dir := b!"insert"
    file := b!"returning_all_json_single"
    targets := [(b!"InsertReturningAllJSONSingleQuery", insert_returning_all_json_single_0)]
    want := [
      b!"// DO NOT EDIT. This file was generated by \"github.com/frk/gosql\".",
      b!"",
      b!"package testdata",
      b!"",
      b!"import (",
      b!"\t\"github.com/frk/gosql\"",
      b!"\t\"github.com/frk/gosql/pgsql\"",
      b!")",
      b!"",
      b!"func (q *InsertReturningAllJSONSingleQuery) Exec(c gosql.Conn) error {",
      b!"\tconst queryString = `INSERT INTO \"test_user\" AS u (",
      b!"\t\t\"email\"",
      b!"\t\t, \"full_name\"",
      b!"\t\t, \"is_active\"",
      b!"\t\t, \"metadata1\"",
      b!"\t\t, \"metadata2\"",
      b!"\t\t, \"created_at\"",
      b!"\t\t, \"updated_at\"",
      b!"\t) VALUES (",
      b!"\t\t$1",
      b!"\t\t, $2",
      b!"\t\t, $3",
      b!"\t\t, $4",
      b!"\t\t, $5",
      b!"\t\t, $6",
      b!"\t\t, $7",
      b!"\t)",
      b!"\tRETURNING",
      b!"\tu.\"id\"",
      b!"\t, u.\"email\"",
      b!"\t, u.\"full_name\"",
      b!"\t, u.\"is_active\"",
      b!"\t, u.\"metadata1\"",
      b!"\t, u.\"metadata2\"",
      b!"\t, u.\"created_at\"",
      b!"\t, u.\"updated_at\"` // `",
      b!"",
      b!"\trow := c.QueryRow(queryString,",
      b!"\t\tq.User.Email,",
      b!"\t\tq.User.FullName,",
      b!"\t\tq.User.IsActive,",
      b!"\t\tpgsql.JSON(q.User.Metadata1),",
      b!"\t\tpgsql.JSON(q.User.Metadata2),",
      b!"\t\tq.User.CreatedAt,",
      b!"\t\tq.User.UpdatedAt,",
      b!"\t)",
      b!"\treturn row.Scan(",
      b!"\t\t&q.User.Id,",
      b!"\t\t&q.User.Email,",
      b!"\t\t&q.User.FullName,",
      b!"\t\t&q.User.IsActive,",
      b!"\t\tpgsql.JSON(&q.User.Metadata1),",
      b!"\t\tpgsql.JSON(&q.User.Metadata2),",
      b!"\t\t&q.User.CreatedAt,",
      b!"\t\t&q.User.UpdatedAt,",
      b!"\t)",
      b!"}",
      b!""] }

/-- internal/testdata/generator/insert/returning_all_json_slice_in.go:8 -/
def insert_returning_all_json_slice_0 : List (FieldHdr × Ty) := [
    fld b!"Users" (.slice (.ptr c_User5)) [(b!"rel", [b!"test_user:u"])],
    low b!"_" g_Return [(b!"sql", [b!"*"])]]

/-- internal/testdata/generator/insert/returning_all_json_slice_out.go -/
def insert_returning_all_json_slice : Golden :=
  { dir := b!"insert"
    file := b!"returning_all_json_slice"
    targets := [(b!"InsertReturningAllJSONSliceQuery", insert_returning_all_json_slice_0)]
    want := [
      b!"// DO NOT EDIT. This file was generated by \"github.com/frk/gosql\".",
      b!"",
      b!"package testdata",
      b!"",
      b!"import (",
      b!"\t\"github.com/frk/gosql\"",
      b!"\t\"github.com/frk/gosql/pgsql\"",
      b!")",
      b!"",
      b!"func (q *InsertReturningAllJSONSliceQuery) Exec(c gosql.Conn) error {",
      b!"\tvar queryString = `INSERT INTO \"test_user\" AS u (",
      b!"\t\t\"email\"",
      b!"\t\t, \"full_name\"",
      b!"\t\t, \"is_active\"",
      b!"\t\t, \"metadata1\"",
      b!"\t\t, \"metadata2\"",
      b!"\t\t, \"created_at\"",
      b!"\t\t, \"updated_at\"",
      b!"\t) VALUES ` // `",
      b!"",
      b!"\tparams := make([]interface{}, len(q.Users)*7)",
      b!"\tfor i, v := range q.Users {",
      b!"\t\tpos := i * 7",
      b!"",
      b!"\t\tparams[pos+0] = v.Email",
      b!"\t\tparams[pos+1] = v.FullName",
      b!"\t\tparams[pos+2] = v.IsActive",
      b!"\t\tparams[pos+3] = pgsql.JSON(v.Metadata1)",
      b!"\t\tparams[pos+4] = pgsql.JSON(v.Metadata2)",
      b!"\t\tparams[pos+5] = v.CreatedAt",
      b!"\t\tparams[pos+6] = v.UpdatedAt",
      b!"",
      b!"\t\tqueryString += `(` + gosql.OrdinalParameters[pos+0] +",
      b!"\t\t\t`, ` + gosql.OrdinalParameters[pos+1] +",
      b!"\t\t\t`, ` + gosql.OrdinalParameters[pos+2] +",
      b!"\t\t\t`, ` + gosql.OrdinalParameters[pos+3] +",
      b!"\t\t\t`, ` + gosql.OrdinalParameters[pos+4] +",
      b!"\t\t\t`, ` + gosql.OrdinalParameters[pos+5] +",
      b!"\t\t\t`, ` + gosql.OrdinalParameters[pos+6] +",
      b!"\t\t\t`),`",
      b!"\t}",
      b!"",
      b!"\tqueryString = queryString[:len(queryString)-1]",
      b!"\tqueryString += ` RETURNING",
      b!"\tu.\"id\"",
      b!"\t, u.\"email\"",
      b!"\t, u.\"full_name\"",
      b!"\t, u.\"is_active\"",
      b!"\t, u.\"metadata1\"",
      b!"\t, u.\"metadata2\"",
      b!"\t, u.\"created_at\"",
      b!"\t, u.\"updated_at\"` // `",
      b!"",
      b!"\trows, err := c.Query(queryString, params...)",
      b!"\tif err != nil {",
      b!"\t\treturn err",
      b!"\t}",
      b!"\tdefer rows.Close()",
      b!"",
      b!"\ti := 0",
      b!"\tfor rows.Next() {",
      b!"\t\terr := rows.Scan(",
      b!"\t\t\t&q.Users[i].Id,",
      b!"\t\t\t&q.Users[i].Email,",
      b!"\t\t\t&q.Users[i].FullName,",
      b!"\t\t\t&q.Users[i].IsActive,",
      b!"\t\t\tpgsql.JSON(&q.Users[i].Metadata1),",
      b!"\t\t\tpgsql.JSON(&q.Users[i].Metadata2),",
      b!"\t\t\t&q.Users[i].CreatedAt,",
      b!"\t\t\t&q.Users[i].UpdatedAt,",
      b!"\t\t)",
      b!"\t\tif err != nil {",
      b!"\t\t\treturn err",
      b!"\t\t}",
      b!"",
      b!"\t\ti += 1",
      b!"\t}",
      b!"\treturn rows.Err()",
      b!"}",
      b!""] }

/-- internal/testdata/generator/insert/returning_all_single_in.go:8 -/
def insert_returning_all_single_0 : List (FieldHdr × Ty) := [
    fld b!"User" (.ptr c_User3) [(b!"rel", [b!"test_user:u"])],
    low b!"_" g_Return [(b!"sql", [b!"*"])]]

/-- internal/testdata/generator/insert/returning_all_single_out.go -/
def insert_returning_all_single : Golden :=
  { dir := b!"insert"
    file := b!"returning_all_single"
    targets := [(b!"InsertReturningAllSingleQuery", insert_returning_all_single_0)]
    want := [
      b!"// DO NOT EDIT. This file was generated by \"github.com/frk/gosql\".",
      b!"",
      b!"package testdata",
      b!"",
      b!"import (",
      b!"\t\"github.com/frk/gosql\"",
      b!")",
      b!"",
      b!"func (q *InsertReturningAllSingleQuery) Exec(c gosql.Conn) error {",
      b!"\tconst queryString = `INSERT INTO \"test_user\" AS u (",
      b!"\t\t\"email\"",
      b!"\t\t, \"password\"",
      b!"\t\t, \"created_at\"",
      b!"\t\t, \"updated_at\"",
      b!"\t) VALUES (",
      b!"\t\t$1",
      b!"\t\t, $2",
      b!"\t\t, $3",
      b!"\t\t, $4",
      b!"\t)",
      b!"\tRETURNING",
      b!"\tu.\"id\"",
      b!"\t, u.\"email\"",
      b!"\t, u.\"created_at\"",
      b!"\t, u.\"updated_at\"` // `",
      b!"",
      b!"\trow := c.QueryRow(queryString,",
      b!"\t\tq.User.Email,",
      b!"\t\tq.User.Password,",
      b!"\t\tq.User.CreatedAt,",
      b!"\t\tq.User.UpdatedAt,",
      b!"\t)",
      b!"\treturn row.Scan(",
      b!"\t\t&q.User.Id,",
      b!"\t\t&q.User.Email,",
      b!"\t\t&q.User.CreatedAt,",
      b!"\t\t&q.User.UpdatedAt,",
      b!"\t)",
      b!"}",
      b!""] }

/-- internal/testdata/generator/insert/returning_all_slice_in.go:8 -/
def insert_returning_all_slice_0 : List (FieldHdr × Ty) := [
    fld b!"Users" (.slice (.ptr c_User)) [(b!"rel", [b!"test_user:u"])],
    low b!"_" g_Return [(b!"sql", [b!"*"])]]

/-- internal/testdata/generator/insert/returning_all_slice_out.go -/
def insert_returning_all_slice : Golden :=
  { dir := b!"insert"
    file := b!"returning_all_slice"
    targets := [(b!"InsertReturningAllSliceQuery", insert_returning_all_slice_0)]
    want := [
      b!"// DO NOT EDIT. This file was generated by \"github.com/frk/gosql\".",
      b!"",
      b!"package testdata",
      b!"",
      b!"import (",
      b!"\t\"github.com/frk/gosql\"",
      b!")",
      b!"",
      b!"func (q *InsertReturningAllSliceQuery) Exec(c gosql.Conn) error {",
      b!"\tvar queryString = `INSERT INTO \"test_user\" AS u (",
      b!"\t\t\"id\"",
      b!"\t\t, \"email\"",
      b!"\t\t, \"full_name\"",
      b!"\t\t, \"created_at\"",
      b!"\t) VALUES ` // `",
      b!"",
      b!"\tparams := make([]interface{}, len(q.Users)*4)",
      b!"\tfor i, v := range q.Users {",
      b!"\t\tpos := i * 4",
      b!"",
      b!"\t\tparams[pos+0] = v.Id",
      b!"\t\tparams[pos+1] = v.Email",
      b!"\t\tparams[pos+2] = v.FullName",
      b!"\t\tparams[pos+3] = v.CreatedAt",
      b!"",
      b!"\t\tqueryString += `(` + gosql.OrdinalParameters[pos+0] +",
      b!"\t\t\t`, ` + gosql.OrdinalParameters[pos+1] +",
      b!"\t\t\t`, ` + gosql.OrdinalParameters[pos+2] +",
      b!"\t\t\t`, ` + gosql.OrdinalParameters[pos+3] +",
      b!"\t\t\t`),`",
      b!"\t}",
      b!"",
      b!"\tqueryString = queryString[:len(queryString)-1]",
      b!"\tqueryString += ` RETURNING",
      b!"\tu.\"id\"",
      b!"\t, u.\"email\"",
      b!"\t, u.\"full_name\"",
      b!"\t, u.\"created_at\"` // `",
      b!"",
      b!"\trows, err := c.Query(queryString, params...)",
      b!"\tif err != nil {",
      b!"\t\treturn err",
      b!"\t}",
      b!"\tdefer rows.Close()",
      b!"",
      b!"\ti := 0",
      b!"\tfor rows.Next() {",
      b!"\t\terr := rows.Scan(",
      b!"\t\t\t&q.Users[i].Id,",
      b!"\t\t\t&q.Users[i].Email,",
      b!"\t\t\t&q.Users[i].FullName,",
      b!"\t\t\t&q.Users[i].CreatedAt,",
      b!"\t\t)",
      b!"\t\tif err != nil {",
      b!"\t\t\treturn err",
      b!"\t\t}",
      b!"",
      b!"\t\ti += 1",
      b!"\t}",
      b!"\treturn rows.Err()",
      b!"}",
      b!""] }

/-- internal/testdata/generator/insert/returning_collist_single_in.go:8 -/
def insert_returning_collist_single_0 : List (FieldHdr × Ty) := [
    fld b!"User" (.ptr c_User3) [(b!"rel", [b!"test_user:u"])],
    low b!"_" g_Return [(b!"sql", [b!"u.id", b!"u.created_at"])]]

/-- internal/testdata/generator/insert/returning_collist_single_out.go -/
def insert_returning_collist_single : Golden :=
  { dir := b!"insert"
    file := b!"returning_collist_single"
    targets := [(b!"InsertReturningCollistSingleQuery", insert_returning_collist_single_0)]
    want := [
      b!"// DO NOT EDIT. This file was generated by \"github.com/frk/gosql\".",
      b!"",
      b!"package testdata",
      b!"",
      b!"import (",
      b!"\t\"github.com/frk/gosql\"",
      b!")",
      b!"",
      b!"func (q *InsertReturningCollistSingleQuery) Exec(c gosql.Conn) error {",
      b!"\tconst queryString = `INSERT INTO \"test_user\" AS u (",
      b!"\t\t\"email\"",
      b!"\t\t, \"password\"",
      b!"\t\t, \"created_at\"",
      b!"\t\t, \"updated_at\"",
      b!"\t) VALUES (",
      b!"\t\t$1",
      b!"\t\t, $2",
      b!"\t\t, $3",
      b!"\t\t, $4",
      b!"\t)",
      b!"\tRETURNING u.\"id\", u.\"created_at\"` // `",
      b!"",
      b!"\trow := c.QueryRow(queryString,",
      b!"\t\tq.User.Email,",
      b!"\t\tq.User.Password,",
      b!"\t\tq.User.CreatedAt,",
      b!"\t\tq.User.UpdatedAt,",
      b!"\t)",
      b!"\treturn row.Scan(&q.User.Id, &q.User.CreatedAt)",
      b!"}",
      b!""] }

/-- internal/testdata/generator/insert/returning_collist_slice_in.go:8 -/
def insert_returning_collist_slice_0 : List (FieldHdr × Ty) := [
    fld b!"Users" (.slice (.ptr c_User)) [(b!"rel", [b!"test_user:u"])],
    low b!"_" g_Return [(b!"sql", [b!"u.id"])]]

/-- internal/testdata/generator/insert/returning_collist_slice_out.go -/
def insert_returning_collist_slice : Golden :=
  { dir := b!"insert"
    file := b!"returning_collist_slice"
    targets := [(b!"InsertReturningCollistSliceQuery", insert_returning_collist_slice_0)]
    want := [
      b!"// DO NOT EDIT. This file was generated by \"github.com/frk/gosql\".",
      b!"",
      b!"package testdata",
      b!"",
      b!"import (",
      b!"\t\"github.com/frk/gosql\"",
      b!")",
      b!"",
      b!"func (q *InsertReturningCollistSliceQuery) Exec(c gosql.Conn) error {",
      b!"\tvar queryString = `INSERT INTO \"test_user\" AS u (",
      b!"\t\t\"id\"",
      b!"\t\t, \"email\"",
      b!"\t\t, \"full_name\"",
      b!"\t\t, \"created_at\"",
      b!"\t) VALUES ` // `",
      b!"",
      b!"\tparams := make([]interface{}, len(q.Users)*4)",
      b!"\tfor i, v := range q.Users {",
      b!"\t\tpos := i * 4",
      b!"",
      b!"\t\tparams[pos+0] = v.Id",
      b!"\t\tparams[pos+1] = v.Email",
      b!"\t\tparams[pos+2] = v.FullName",
      b!"\t\tparams[pos+3] = v.CreatedAt",
      b!"",
      b!"\t\tqueryString += `(` + gosql.OrdinalParameters[pos+0] +",
      b!"\t\t\t`, ` + gosql.OrdinalParameters[pos+1] +",
      b!"\t\t\t`, ` + gosql.OrdinalParameters[pos+2] +",
      b!"\t\t\t`, ` + gosql.OrdinalParameters[pos+3] +",
      b!"\t\t\t`),`",
      b!"\t}",
      b!"",
      b!"\tqueryString = queryString[:len(queryString)-1]",
      b!"\tqueryString += ` RETURNING u.\"id\"` // `",
      b!"",
      b!"\trows, err := c.Query(queryString, params...)",
      b!"\tif err != nil {",
      b!"\t\treturn err",
      b!"\t}",
      b!"\tdefer rows.Close()",
      b!"",
      b!"\ti := 0",
      b!"\tfor rows.Next() {",
      b!"\t\terr := rows.Scan(&q.Users[i].Id)",
      b!"\t\tif err != nil {",
      b!"\t\t\treturn err",
      b!"\t\t}",
      b!"",
      b!"\t\ti += 1",
      b!"\t}",
      b!"\treturn rows.Err()",
      b!"}",
      b!""] }

/-- internal/testdata/generator/insert/returning_context_single_in.go:10 -/
def insert_returning_context_single_0 : List (FieldHdr × Ty) := [
    fld b!"User" (.ptr c_User3) [(b!"rel", [b!"test_user:u"])],
    low b!"_" g_Return [(b!"sql", [b!"*"])],
    low b!"ctx" context_Context]

/-- internal/testdata/generator/insert/returning_context_single_out.go -/
def insert_returning_context_single : Golden :=
  { dir := b!"insert"
    file := b!"returning_context_single"
    targets := [(b!"InsertReturningContextSingleQuery", insert_returning_context_single_0)]
    want := [
      b!"// DO NOT EDIT. This file was generated by \"github.com/frk/gosql\".",
      b!"",
      b!"package testdata",
      b!"",
      b!"import (",
      b!"\t\"github.com/frk/gosql\"",
      b!")",
      b!"",
      b!"func (q *InsertReturningContextSingleQuery) Exec(c gosql.Conn) error {",
      b!"\tconst queryString = `INSERT INTO \"test_user\" AS u (",
      b!"\t\t\"email\"",
      b!"\t\t, \"password\"",
      b!"\t\t, \"created_at\"",
      b!"\t\t, \"updated_at\"",
      b!"\t) VALUES (",
      b!"\t\t$1",
      b!"\t\t, $2",
      b!"\t\t, $3",
      b!"\t\t, $4",
      b!"\t)",
      b!"\tRETURNING",
      b!"\tu.\"id\"",
      b!"\t, u.\"email\"",
      b!"\t, u.\"created_at\"",
      b!"\t, u.\"updated_at\"` // `",
      b!"",
      b!"\trow := c.QueryRowContext(q.ctx,",
      b!"\t\tqueryString,",
      b!"\t\tq.User.Email,",
      b!"\t\tq.User.Password,",
      b!"\t\tq.User.CreatedAt,",
      b!"\t\tq.User.UpdatedAt,",
      b!"\t)",
      b!"\treturn row.Scan(",
      b!"\t\t&q.User.Id,",
      b!"\t\t&q.User.Email,",
      b!"\t\t&q.User.CreatedAt,",
      b!"\t\t&q.User.UpdatedAt,",
      b!"\t)",
      b!"}",
      b!""] }

/-- internal/testdata/generator/insert/returning_context_slice_in.go:10 -/
def insert_returning_context_slice_0 : List (FieldHdr × Ty) := [
    fld b!"Users" (.slice (.ptr c_User)) [(b!"rel", [b!"test_user:u"])],
    low b!"_" g_Return [(b!"sql", [b!"*"])],
    low b!"ctx" context_Context]

/-- internal/testdata/generator/insert/returning_context_slice_out.go -/
def insert_returning_context_slice : Golden :=
  { dir := b!"insert"
    file := b!"returning_context_slice"
    targets := [(b!"InsertReturningContextSliceQuery", insert_returning_context_slice_0)]
    want := [
      b!"// DO NOT EDIT. This file was generated by \"github.com/frk/gosql\".",
      b!"",
      b!"package testdata",
      b!"",
      b!"import (",
      b!"\t\"github.com/frk/gosql\"",
      b!")",
      b!"",
      b!"func (q *InsertReturningContextSliceQuery) Exec(c gosql.Conn) error {",
      b!"\tvar queryString = `INSERT INTO \"test_user\" AS u (",
      b!"\t\t\"id\"",
      b!"\t\t, \"email\"",
      b!"\t\t, \"full_name\"",
      b!"\t\t, \"created_at\"",
      b!"\t) VALUES ` // `",
      b!"",
      b!"\tparams := make([]interface{}, len(q.Users)*4)",
      b!"\tfor i, v := range q.Users {",
      b!"\t\tpos := i * 4",
      b!"",
      b!"\t\tparams[pos+0] = v.Id",
      b!"\t\tparams[pos+1] = v.Email",
      b!"\t\tparams[pos+2] = v.FullName",
      b!"\t\tparams[pos+3] = v.CreatedAt",
      b!"",
      b!"\t\tqueryString += `(` + gosql.OrdinalParameters[pos+0] +",
      b!"\t\t\t`, ` + gosql.OrdinalParameters[pos+1] +",
      b!"\t\t\t`, ` + gosql.OrdinalParameters[pos+2] +",
      b!"\t\t\t`, ` + gosql.OrdinalParameters[pos+3] +",
      b!"\t\t\t`),`",
      b!"\t}",
      b!"",
      b!"\tqueryString = queryString[:len(queryString)-1]",
      b!"\tqueryString += ` RETURNING",
      b!"\tu.\"id\"",
      b!"\t, u.\"email\"",
      b!"\t, u.\"full_name\"",
      b!"\t, u.\"created_at\"` // `",
      b!"",
      b!"\trows, err := c.QueryContext(q.ctx, queryString, params...)",
      b!"\tif err != nil {",
      b!"\t\treturn err",
      b!"\t}",
      b!"\tdefer rows.Close()",
      b!"",
      b!"\ti := 0",
      b!"\tfor rows.Next() {",
      b!"\t\terr := rows.Scan(",
      b!"\t\t\t&q.Users[i].Id,",
      b!"\t\t\t&q.Users[i].Email,",
      b!"\t\t\t&q.Users[i].FullName,",
      b!"\t\t\t&q.Users[i].CreatedAt,",
      b!"\t\t)",
      b!"\t\tif err != nil {",
      b!"\t\t\treturn err",
      b!"\t\t}",
      b!"",
      b!"\t\ti += 1",
      b!"\t}",
      b!"\treturn rows.Err()",
      b!"}",
      b!""] }

/-- internal/testdata/generator/insert/returning_errorhandler_slice_in.go:8 -/
def insert_returning_errorhandler_slice_0 : List (FieldHdr × Ty) := [
    fld b!"Users" (.slice (.ptr c_User3)) [(b!"rel", [b!"test_user:u"])],
    low b!"_" g_Return [(b!"sql", [b!"u.id"])],
    low b!"erh" c_ErrorHandler]

/-- internal/testdata/generator/insert/returning_errorhandler_slice_out.go -/
def insert_returning_errorhandler_slice : Golden :=
  { dir := b!"insert"
    file := b!"returning_errorhandler_slice"
    targets := [(b!"InsertReturningErrorHandlerSliceQuery", insert_returning_errorhandler_slice_0)]
    want := [
      b!"// DO NOT EDIT. This file was generated by \"github.com/frk/gosql\".",
      b!"",
      b!"package testdata",
      b!"",
      b!"import (",
      b!"\t\"github.com/frk/gosql\"",
      b!")",
      b!"",
      b!"func (q *InsertReturningErrorHandlerSliceQuery) Exec(c gosql.Conn) error {",
      b!"\tvar queryString = `INSERT INTO \"test_user\" AS u (",
      b!"\t\t\"email\"",
      b!"\t\t, \"password\"",
      b!"\t\t, \"created_at\"",
      b!"\t\t, \"updated_at\"",
      b!"\t) VALUES ` // `",
      b!"",
      b!"\tparams := make([]interface{}, len(q.Users)*4)",
      b!"\tfor i, v := range q.Users {",
      b!"\t\tpos := i * 4",
      b!"",
      b!"\t\tparams[pos+0] = v.Email",
      b!"\t\tparams[pos+1] = v.Password",
      b!"\t\tparams[pos+2] = v.CreatedAt",
      b!"\t\tparams[pos+3] = v.UpdatedAt",
      b!"",
      b!"\t\tqueryString += `(` + gosql.OrdinalParameters[pos+0] +",
      b!"\t\t\t`, ` + gosql.OrdinalParameters[pos+1] +",
      b!"\t\t\t`, ` + gosql.OrdinalParameters[pos+2] +",
      b!"\t\t\t`, ` + gosql.OrdinalParameters[pos+3] +",
      b!"\t\t\t`),`",
      b!"\t}",
      b!"",
      b!"\tqueryString = queryString[:len(queryString)-1]",
      b!"\tqueryString += ` RETURNING u.\"id\"` // `",
      b!"",
      b!"\trows, err := c.Query(queryString, params...)",
      b!"\tif err != nil {",
      b!"\t\treturn q.erh.HandleError(err)",
      b!"\t}",
      b!"\tdefer rows.Close()",
      b!"",
      b!"\ti := 0",
      b!"\tfor rows.Next() {",
      b!"\t\terr := rows.Scan(&q.Users[i].Id)",
      b!"\t\tif err != nil {",
      b!"\t\t\treturn q.erh.HandleError(err)",
      b!"\t\t}",
      b!"",
      b!"\t\ti += 1",
      b!"\t}",
      b!"\treturn q.erh.HandleError(rows.Err())",
      b!"}",
      b!""] }

/-- internal/testdata/generator/insert/returning_errorinfohandler_slice_in.go:8 -/
def insert_returning_errorinfohandler_slice_0 : List (FieldHdr × Ty) := [
    fld b!"Users" (.slice (.ptr c_User3)) [(b!"rel", [b!"test_user:u"])],
    low b!"_" g_Return [(b!"sql", [b!"u.id"])],
    low b!"erh" c_ErrorInfoHandler]

/-- internal/testdata/generator/insert/returning_errorinfohandler_slice_out.go -/
def insert_returning_errorinfohandler_slice : Golden :=
  { dir := b!"insert"
    file := b!"returning_errorinfohandler_slice"
    targets := [(b!"InsertReturningErrorInfoHandlerSliceQuery", insert_returning_errorinfohandler_slice_0)]
    want := [
      b!"// DO NOT EDIT. This file was generated by \"github.com/frk/gosql\".",
      b!"",
      b!"package testdata",
      b!"",
      b!"import (",
      b!"\t\"github.com/frk/gosql\"",
      b!")",
      b!"",
      b!"func (q *InsertReturningErrorInfoHandlerSliceQuery) Exec(c gosql.Conn) error {",
      b!"\tvar queryString = `INSERT INTO \"test_user\" AS u (",
      b!"\t\t\"email\"",
      b!"\t\t, \"password\"",
      b!"\t\t, \"created_at\"",
      b!"\t\t, \"updated_at\"",
      b!"\t) VALUES ` // `",
      b!"",
      b!"\tparams := make([]interface{}, len(q.Users)*4)",
      b!"\tfor i, v := range q.Users {",
      b!"\t\tpos := i * 4",
      b!"",
      b!"\t\tparams[pos+0] = v.Email",
      b!"\t\tparams[pos+1] = v.Password",
      b!"\t\tparams[pos+2] = v.CreatedAt",
      b!"\t\tparams[pos+3] = v.UpdatedAt",
      b!"",
      b!"\t\tqueryString += `(` + gosql.OrdinalParameters[pos+0] +",
      b!"\t\t\t`, ` + gosql.OrdinalParameters[pos+1] +",
      b!"\t\t\t`, ` + gosql.OrdinalParameters[pos+2] +",
      b!"\t\t\t`, ` + gosql.OrdinalParameters[pos+3] +",
      b!"\t\t\t`),`",
      b!"\t}",
      b!"",
      b!"\tqueryString = queryString[:len(queryString)-1]",
      b!"\tqueryString += ` RETURNING u.\"id\"` // `",
      b!"",
      b!"\trows, err := c.Query(queryString, params...)",
      b!"\tif err != nil {",
      b!"\t\treturn q.erh.HandleErrorInfo(&gosql.ErrorInfo{Error: err, QueryString: queryString, QueryKind: \"Insert\", QueryName: \"InsertReturningErrorInfoHandlerSliceQuery\", QueryValue: q})",
      b!"\t}",
      b!"\tdefer rows.Close()",
      b!"",
      b!"\ti := 0",
      b!"\tfor rows.Next() {",
      b!"\t\terr := rows.Scan(&q.Users[i].Id)",
      b!"\t\tif err != nil {",
      b!"\t\t\treturn q.erh.HandleErrorInfo(&gosql.ErrorInfo{Error: err, QueryString: queryString, QueryKind: \"Insert\", QueryName: \"InsertReturningErrorInfoHandlerSliceQuery\", QueryValue: q})",
      b!"\t\t}",
      b!"",
      b!"\t\ti += 1",
      b!"\t}",
      b!"\tif err := rows.Err(); err != nil {",
      b!"\t\treturn q.erh.HandleErrorInfo(&gosql.ErrorInfo{Error: err, QueryString: queryString, QueryKind: \"Insert\", QueryName: \"InsertReturningErrorInfoHandlerSliceQuery\", QueryValue: q})",
      b!"\t}",
      b!"\treturn nil",
      b!"}",
      b!""] }

/-- internal/testdata/generator/insert/rowsaffected_errorhandler_single_in.go:7 -/
def insert_rowsaffected_errorhandler_single_0 : List (FieldHdr × Ty) := [
    fld b!"User" (.ptr c_User3) [(b!"rel", [b!"test_user:u"])],
    fld b!"RowsAffected" (.basic .int b!"int"),
    emb b!"ErrorHandler" c_ErrorHandler]

/-- internal/testdata/generator/insert/rowsaffected_errorhandler_single_out.go -/
def insert_rowsaffected_errorhandler_single : Golden :=
  { dir := b!"insert"
    file := b!"rowsaffected_errorhandler_single"
    targets := [(b!"InsertRowsAffectedErrorHandlerSingleQuery", insert_rowsaffected_errorhandler_single_0)]
    want := [
      b!"// DO NOT EDIT. This file was generated by \"github.com/frk/gosql\".",
      b!"",
      b!"package testdata",
      b!"",
      b!"import (",
      b!"\t\"github.com/frk/gosql\"",
      b!")",
      b!"",
      b!"func (q *InsertRowsAffectedErrorHandlerSingleQuery) Exec(c gosql.Conn) error {",
      b!"\tconst queryString = `INSERT INTO \"test_user\" AS u (",
      b!"\t\t\"email\"",
      b!"\t\t, \"password\"",
      b!"\t\t, \"created_at\"",
      b!"\t\t, \"updated_at\"",
      b!"\t) VALUES (",
      b!"\t\t$1",
      b!"\t\t, $2",
      b!"\t\t, $3",
      b!"\t\t, $4",
      b!"\t)` // `",
      b!"",
      b!"\tres, err := c.Exec(queryString,",
      b!"\t\tq.User.Email,",
      b!"\t\tq.User.Password,",
      b!"\t\tq.User.CreatedAt,",
      b!"\t\tq.User.UpdatedAt,",
      b!"\t)",
      b!"\tif err != nil {",
      b!"\t\treturn q.ErrorHandler.HandleError(err)",
      b!"\t}",
      b!"\ti64, err := res.RowsAffected()",
      b!"\tif err != nil {",
      b!"\t\treturn q.ErrorHandler.HandleError(err)",
      b!"\t}",
      b!"",
      b!"\tq.RowsAffected = int(i64)",
      b!"\treturn nil",
      b!"}",
      b!""] }

/-- internal/testdata/generator/insert/rowsaffected_errorinfohandler_single_in.go:7 -/
def insert_rowsaffected_errorinfohandler_single_0 : List (FieldHdr × Ty) := [
    fld b!"User" (.ptr c_User3) [(b!"rel", [b!"test_user:u"])],
    fld b!"RowsAffected" (.basic .int b!"int"),
    emb b!"ErrorInfoHandler" c_ErrorInfoHandler]

/-- internal/testdata/generator/insert/rowsaffected_errorinfohandler_single_out.go -/
def insert_rowsaffected_errorinfohandler_single : Golden :=
  { dir := b!"insert"
    file := b!"rowsaffected_errorinfohandler_single"
    targets := [(b!"InsertRowsAffectedErrorInfoHandlerSingleQuery", insert_rowsaffected_errorinfohandler_single_0)]
    want := [
      b!"// DO NOT EDIT. This file was generated by \"github.com/frk/gosql\".",
      b!"",
      b!"package testdata",
      b!"",
      b!"import (",
      b!"\t\"github.com/frk/gosql\"",
      b!")",
      b!"",
      b!"func (q *InsertRowsAffectedErrorInfoHandlerSingleQuery) Exec(c gosql.Conn) error {",
      b!"\tconst queryString = `INSERT INTO \"test_user\" AS u (",
      b!"\t\t\"email\"",
      b!"\t\t, \"password\"",
      b!"\t\t, \"created_at\"",
      b!"\t\t, \"updated_at\"",
      b!"\t) VALUES (",
      b!"\t\t$1",
      b!"\t\t, $2",
      b!"\t\t, $3",
      b!"\t\t, $4",
      b!"\t)` // `",
      b!"",
      b!"\tres, err := c.Exec(queryString,",
      b!"\t\tq.User.Email,",
      b!"\t\tq.User.Password,",
      b!"\t\tq.User.CreatedAt,",
      b!"\t\tq.User.UpdatedAt,",
      b!"\t)",
      b!"\tif err != nil {",
      b!"\t\treturn q.ErrorInfoHandler.HandleErrorInfo(&gosql.ErrorInfo{Error: err, QueryString: queryString, QueryKind: \"Insert\", QueryName: \"InsertRowsAffectedErrorInfoHandlerSingleQuery\", QueryValue: q})",
      b!"\t}",
      b!"\ti64, err := res.RowsAffected()",
      b!"\tif err != nil {",
      b!"\t\treturn q.ErrorInfoHandler.HandleErrorInfo(&gosql.ErrorInfo{Error: err, QueryString: queryString, QueryKind: \"Insert\", QueryName: \"InsertRowsAffectedErrorInfoHandlerSingleQuery\", QueryValue: q})",
      b!"\t}",
      b!"",
      b!"\tq.RowsAffected = int(i64)",
      b!"\treturn nil",
      b!"}",
      b!""] }

/-- internal/testdata/generator/insert/rowsaffected_single_in.go:7 -/
def insert_rowsaffected_single_0 : List (FieldHdr × Ty) := [
    fld b!"User" (.ptr c_User3) [(b!"rel", [b!"test_user:u"])],
    fld b!"RowsAffected" (.basic .int b!"int")]

/-- internal/testdata/generator/insert/rowsaffected_single_out.go -/
def insert_rowsaffected_single : Golden :=
  { dir := b!"insert"
    file := b!"rowsaffected_single"
    targets := [(b!"InsertRowsAffectedSingleQuery", insert_rowsaffected_single_0)]
    want := [
      b!"// DO NOT EDIT. This file was generated by \"github.com/frk/gosql\".",
      b!"",
      b!"package testdata",
      b!"",
      b!"import (",
      b!"\t\"github.com/frk/gosql\"",
      b!")",
      b!"",
      b!"func (q *InsertRowsAffectedSingleQuery) Exec(c gosql.Conn) error {",
      b!"\tconst queryString = `INSERT INTO \"test_user\" AS u (",
      b!"\t\t\"email\"",
      b!"\t\t, \"password\"",
      b!"\t\t, \"created_at\"",
      b!"\t\t, \"updated_at\"",
      b!"\t) VALUES (",
      b!"\t\t$1",
      b!"\t\t, $2",
      b!"\t\t, $3",
      b!"\t\t, $4",
      b!"\t)` // `",
      b!"",
      b!"\tres, err := c.Exec(queryString,",
      b!"\t\tq.User.Email,",
      b!"\t\tq.User.Password,",
      b!"\t\tq.User.CreatedAt,",
      b!"\t\tq.User.UpdatedAt,",
      b!"\t)",
      b!"\tif err != nil {",
      b!"\t\treturn err",
      b!"\t}",
      b!"\ti64, err := res.RowsAffected()",
      b!"\tif err != nil {",
      b!"\t\treturn err",
      b!"\t}",
      b!"",
      b!"\tq.RowsAffected = int(i64)",
      b!"\treturn nil",
      b!"}",
      b!""] }

def insertGoldens0 : List Golden := [
  insert_basic_single, insert_basic_single2, insert_basic_slice,
  insert_default_all_returning_single]

def insertGoldens1 : List Golden := [
  insert_default_all_returning_slice, insert_default_all_single, insert_default_all_slice,
  insert_default_single]

def insertGoldens2 : List Golden := [
  insert_default_slice, insert_json_single, insert_json_slice,
  insert_onconflict_column_ignore_single_1]

def insertGoldens3 : List Golden := [
  insert_onconflict_column_ignore_single_2, insert_onconflict_column_update_single_1,
  insert_onconflict_column_update_returning_slice, insert_onconflict_constraint_ignore_single_1]

def insertGoldens4 : List Golden := [
  insert_onconflict_ignore_single, insert_onconflict_ignore_slice,
  insert_onconflict_index_ignore_single_1, insert_onconflict_index_ignore_single_2]

def insertGoldens5 : List Golden := [
  insert_onconflict_index_update_single_1, insert_onconflict_index_update_returning_slice,
  insert_result_afterscan_iterator, insert_result_afterscan_single]

def insertGoldens6 : List Golden := [
  insert_result_afterscan_slice, insert_result_basic_iterator, insert_result_basic_single,
  insert_result_basic_slice]

def insertGoldens7 : List Golden := [
  insert_result_errorhandler_iterator, insert_result_errorhandler_single,
  insert_result_errorinfohandler_iterator, insert_result_errorinfohandler_single]

def insertGoldens8 : List Golden := [
  insert_result_json_single, insert_result_json_slice, insert_returning_afterscan_single,
  insert_returning_afterscan_slice]

def insertGoldens9 : List Golden := [
  insert_returning_all_json_single, insert_returning_all_json_slice, insert_returning_all_single,
  insert_returning_all_slice]

def insertGoldens10 : List Golden := [
  insert_returning_collist_single, insert_returning_collist_slice,
  insert_returning_context_single, insert_returning_context_slice]

def insertGoldens11 : List Golden := [
  insert_returning_errorhandler_slice, insert_returning_errorinfohandler_slice,
  insert_rowsaffected_errorhandler_single, insert_rowsaffected_errorinfohandler_single]

def insertGoldens12 : List Golden := [
  insert_rowsaffected_single]

def insertGoldens : List Golden :=
  insertGoldens0 ++ insertGoldens1 ++ insertGoldens2 ++ insertGoldens3 ++ insertGoldens4 ++ insertGoldens5 ++
  insertGoldens6 ++ insertGoldens7 ++ insertGoldens8 ++ insertGoldens9 ++ insertGoldens10 ++
  insertGoldens11 ++ insertGoldens12

end Verif.Conform
