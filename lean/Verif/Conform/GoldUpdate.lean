import Verif.Conform.GoldTypes
import Verif.Conform.GoldBase

/-
The input and the expected output of the generator tests, /repo/internal/testdata/generator/update.

This file is written by /verif/tools/conform.py; do not edit it by hand.
-/
namespace Verif.Conform
open Verif.Analysis

/-- internal/testdata/generator/update/all_single_in.go:8 -/
def update_all_single_0 : List (FieldHdr × Ty) := [
    fld b!"User" (.ptr c_User4) [(b!"rel", [b!"test_user"])],
    low b!"_" g_All]

/-- internal/testdata/generator/update/all_single_out.go -/
def update_all_single : Golden :=
  { dir := b!"update"
    file := b!"all_single"
    targets := [(b!"UpdateAllSingleQuery", update_all_single_0)]
    want := [
      b!"// DO NOT EDIT. This file was generated by \"github.com/frk/gosql\".",
      b!"",
      b!"package testdata",
      b!"",
      b!"import (",
      b!"\t\"github.com/frk/gosql\"",
      b!")",
      b!"",
      b!"func (q *UpdateAllSingleQuery) Exec(c gosql.Conn) error {",
      b!"\tconst queryString = `UPDATE \"test_user\" SET (",
      b!"\t\t\"email\"",
      b!"\t\t, \"full_name\"",
      b!"\t\t, \"is_active\"",
      b!"\t\t, \"created_at\"",
      b!"\t\t, \"updated_at\"",
      b!"\t) = (",
      b!"\t\t$1",
      b!"\t\t, $2",
      b!"\t\t, $3",
      b!"\t\t, $4",
      b!"\t\t, $5",
      b!"\t)` // `",
      b!"",
      b!"\t_, err := c.Exec(queryString,",
      b!"\t\tq.User.Email,",
      b!"\t\tq.User.FullName,",
      b!"\t\tq.User.IsActive,",
      b!"\t\tq.User.CreatedAt,",
      b!"\t\tq.User.UpdatedAt,",
      b!"\t)",
      b!"\treturn err",
      b!"}",
      b!""] }

/-- internal/testdata/generator/update/filter_single_in.go:8 -/
def update_filter_single_0 : List (FieldHdr × Ty) := [
    fld b!"User" (.ptr c_User4) [(b!"rel", [b!"test_user:u"])],
    emb b!"Filter" g_Filter]

/-- internal/testdata/generator/update/filter_single_out.go -/
def update_filter_single : Golden :=
  { dir := b!"update"
    file := b!"filter_single"
    targets := [(b!"UpdateFilterSingleQuery", update_filter_single_0)]
    want := [
      b!"// DO NOT EDIT. This file was generated by \"github.com/frk/gosql\".",
      b!"",
      b!"package testdata",
      b!"",
      b!"import (",
      b!"\t\"github.com/frk/gosql\"",
      b!")",
      b!"",
      b!"func (q *UpdateFilterSingleQuery) Exec(c gosql.Conn) error {",
      b!"\tvar queryString = `UPDATE \"test_user\" AS u SET (",
      b!"\t\t\"email\"",
      b!"\t\t, \"full_name\"",
      b!"\t\t, \"is_active\"",
      b!"\t\t, \"created_at\"",
      b!"\t\t, \"updated_at\"",
      b!"\t) = (",
      b!"\t\t$1",
      b!"\t\t, $2",
      b!"\t\t, $3",
      b!"\t\t, $4",
      b!"\t\t, $5",
      b!"\t)` // `",
      b!"",
      b!"\tfilterString, params := q.Filter.ToSQL(5)",
      b!"\tqueryString += filterString",
      b!"",
      b!"\tparams = append([]interface{}{",
      b!"\t\tq.User.Email,",
      b!"\t\tq.User.FullName,",
      b!"\t\tq.User.IsActive,",
      b!"\t\tq.User.CreatedAt,",
      b!"\t\tq.User.UpdatedAt,",
      b!"\t}, params...)",
      b!"",
      b!"\t_, err := c.Exec(queryString, params...)",
      b!"\treturn err",
      b!"}",
      b!""] }

/-- internal/testdata/generator/update/filter_result_slice_in.go:8 -/
def update_filter_result_slice_0 : List (FieldHdr × Ty) := [
    fld b!"User" (.ptr c_User4) [(b!"rel", [b!"test_user:u"])],
    emb b!"Filter" g_Filter,
    fld b!"Result" (.slice (.ptr c_User4))]

/-- internal/testdata/generator/update/filter_result_slice_out.go -/
def update_filter_result_slice : Golden :=
  { dir := b!"update"
    file := b!"filter_result_slice"
    targets := [(b!"UpdateFilterResultSliceQuery", update_filter_result_slice_0)]
    want := [
      b!"// DO NOT EDIT. This file was generated by \"github.com/frk/gosql\".",
      b!"",
      b!"package testdata",
      b!"",
      b!"import (",
      b!"\t\"github.com/frk/gosql\"",
      b!"\t\"github.com/frk/gosql/internal/testdata/common\"",
      b!")",
      b!"",
      b!"func (q *UpdateFilterResultSliceQuery) Exec(c gosql.Conn) error {",
      b!"\tvar queryString = `UPDATE \"test_user\" AS u SET (",
      b!"\t\t\"email\"",
      b!"\t\t, \"full_name\"",
      b!"\t\t, \"is_active\"",
      b!"\t\t, \"created_at\"",
      b!"\t\t, \"updated_at\"",
      b!"\t) = (",
      b!"\t\t$1",
      b!"\t\t, $2",
      b!"\t\t, $3",
      b!"\t\t, $4",
      b!"\t\t, $5",
      b!"\t)` // `",
      b!"",
      b!"\tfilterString, params := q.Filter.ToSQL(5)",
      b!"\tqueryString += filterString",
      b!"\tqueryString += ` RETURNING",
      b!"\tu.\"id\"",
      b!"\t, u.\"email\"",
      b!"\t, u.\"full_name\"",
      b!"\t, u.\"is_active\"",
      b!"\t, u.\"created_at\"",
      b!"\t, u.\"updated_at\"` // `",
      b!"",
      b!"\tparams = append([]interface{}{",
      b!"\t\tq.User.Email,",
      b!"\t\tq.User.FullName,",
      b!"\t\tq.User.IsActive,",
      b!"\t\tq.User.CreatedAt,",
      b!"\t\tq.User.UpdatedAt,",
      b!"\t}, params...)",
      b!"",
      b!"\trows, err := c.Query(queryString, params...)",
      b!"\tif err != nil {",
      b!"\t\treturn err",
      b!"\t}",
      b!"\tdefer rows.Close()",
      b!"",
      b!"\tfor rows.Next() {",
      b!"\t\tv := new(common.User4)",
      b!"\t\terr := rows.Scan(",
      b!"\t\t\t&v.Id,",
      b!"\t\t\t&v.Email,",
      b!"\t\t\t&v.FullName,",
      b!"\t\t\t&v.IsActive,",
      b!"\t\t\t&v.CreatedAt,",
      b!"\t\t\t&v.UpdatedAt,",
      b!"\t\t)",
      b!"\t\tif err != nil {",
      b!"\t\t\treturn err",
      b!"\t\t}",
      b!"",
      b!"\t\tq.Result = append(q.Result, v)",
      b!"\t}",
      b!"\treturn rows.Err()",
      b!"}",
      b!""] }

/-- internal/testdata/generator/update/fromblock_basic_single_in.go:8 -/
def update_fromblock_basic_single_0 : List (FieldHdr × Ty) := [
    fld b!"User" (.ptr c_User4) [(b!"rel", [b!"test_user:u"])],
    fld b!"From" (.struct (.ofList [
    low b!"_" g_Relation [(b!"sql", [b!"test_post:p"])]])),
    fld b!"Where" (.struct (.ofList [
    low b!"_" g_Column [(b!"sql", [b!"u.id=p.user_id"])],
    low b!"_" g_Column [(b!"sql", [b!"p.is_spam"])]]))]

/-- internal/testdata/generator/update/fromblock_basic_single_out.go -/
def update_fromblock_basic_single : Golden :=
  { dir := b!"update"
    file := b!"fromblock_basic_single"
    targets := [(b!"UpdateFromblockBasicSingleQuery", update_fromblock_basic_single_0)]
    want := [
      b!"// DO NOT EDIT. This file was generated by \"github.com/frk/gosql\".",
      b!"",
      b!"package testdata",
      b!"",
      b!"import (",
      b!"\t\"github.com/frk/gosql\"",
      b!")",
      b!"",
      b!"func (q *UpdateFromblockBasicSingleQuery) Exec(c gosql.Conn) error {",
      b!"\tconst queryString = `UPDATE \"test_user\" AS u SET (",
      b!"\t\t\"email\"",
      b!"\t\t, \"full_name\"",
      b!"\t\t, \"is_active\"",
      b!"\t\t, \"created_at\"",
      b!"\t\t, \"updated_at\"",
      b!"\t) = (",
      b!"\t\t$1",
      b!"\t\t, $2",
      b!"\t\t, $3",
      b!"\t\t, $4",
      b!"\t\t, $5",
      b!"\t)",
      b!"\tFROM \"test_post\" AS p",
      b!"\tWHERE u.\"id\" = p.\"user_id\" AND p.\"is_spam\" IS TRUE` // `",
      b!"",
      b!"\t_, err := c.Exec(queryString,",
      b!"\t\tq.User.Email,",
      b!"\t\tq.User.FullName,",
      b!"\t\tq.User.IsActive,",
      b!"\t\tq.User.CreatedAt,",
      b!"\t\tq.User.UpdatedAt,",
      b!"\t)",
      b!"\treturn err",
      b!"}",
      b!""] }

/-- internal/testdata/generator/update/fromblock_join_single_in.go:8 -/
def update_fromblock_join_single_0 : List (FieldHdr × Ty) := [
    fld b!"User" (.ptr c_User4) [(b!"rel", [b!"test_user:u"])],
    fld b!"From" (.struct (.ofList [
    low b!"_" g_Relation [(b!"sql", [b!"test_post:p"])],
    low b!"_" g_LeftJoin [(b!"sql", [b!"test_join1:j1", b!"j1.post_id = p.id"])],
    low b!"_" g_RightJoin [(b!"sql", [b!"test_join2:j2", b!"j2.join1_id = j1.id"])],
    low b!"_" g_FullJoin [(b!"sql", [b!"test_join3:j3", b!"j3.join2_id = j2.id"])],
    low b!"_" g_CrossJoin [(b!"sql", [b!"test_join4:j4"])]])),
    fld b!"Where" (.struct (.ofList [
    low b!"_" g_Column [(b!"sql", [b!"u.id=p.user_id"])],
    low b!"_" g_Column [(b!"sql", [b!"p.is_spam"])]]))]

/-- internal/testdata/generator/update/fromblock_join_single_out.go -/
def update_fromblock_join_single : Golden :=
  { dir := b!"update"
    file := b!"fromblock_join_single"
    targets := [(b!"UpdateFromblockJoinSingleQuery", update_fromblock_join_single_0)]
    want := [
      b!"// DO NOT EDIT. This file was generated by \"github.com/frk/gosql\".",
      b!"",
      b!"package testdata",
      b!"",
      b!"import (",
      b!"\t\"github.com/frk/gosql\"",
      b!")",
      b!"",
      b!"func (q *UpdateFromblockJoinSingleQuery) Exec(c gosql.Conn) error {",
      b!"\tconst queryString = `UPDATE \"test_user\" AS u SET (",
      b!"\t\t\"email\"",
      b!"\t\t, \"full_name\"",
      b!"\t\t, \"is_active\"",
      b!"\t\t, \"created_at\"",
      b!"\t\t, \"updated_at\"",
      b!"\t) = (",
      b!"\t\t$1",
      b!"\t\t, $2",
      b!"\t\t, $3",
      b!"\t\t, $4",
      b!"\t\t, $5",
      b!"\t)",
      b!"\tFROM \"test_post\" AS p",
      b!"\tLEFT JOIN \"test_join1\" AS j1 ON j1.\"post_id\" = p.\"id\"",
      b!"\tRIGHT JOIN \"test_join2\" AS j2 ON j2.\"join1_id\" = j1.\"id\"",
      b!"\tFULL JOIN \"test_join3\" AS j3 ON j3.\"join2_id\" = j2.\"id\"",
      b!"\tCROSS JOIN \"test_join4\" AS j4",
      b!"\tWHERE u.\"id\" = p.\"user_id\" AND p.\"is_spam\" IS TRUE` // `",
      b!"",
      b!"\t_, err := c.Exec(queryString,",
      b!"\t\tq.User.Email,",
      b!"\t\tq.User.FullName,",
      b!"\t\tq.User.IsActive,",
      b!"\t\tq.User.CreatedAt,",
      b!"\t\tq.User.UpdatedAt,",
      b!"\t)",
      b!"\treturn err",
      b!"}",
      b!""] }

/-- internal/testdata/generator/update/pkey_composite_single_in.go:7 -/
def update_pkey_composite_single_0 : List (FieldHdr × Ty) := [
    fld b!"Data" (.ptr c_ConflictData) [(b!"rel", [b!"test_composite_pkey:p"])]]

/-- internal/testdata/generator/update/pkey_composite_single_out.go -/
def update_pkey_composite_single : Golden :=
  { dir := b!"update"
    file := b!"pkey_composite_single"
    targets := [(b!"UpdatePKeyCompositeSingleQuery", update_pkey_composite_single_0)]
    want := [
      b!"// DO NOT EDIT. This file was generated by \"github.com/frk/gosql\".",
      b!"",
      b!"package testdata",
      b!"",
      b!"import (",
      b!"\t\"github.com/frk/gosql\"",
      b!")",
      b!"",
      b!"func (q *UpdatePKeyCompositeSingleQuery) Exec(c gosql.Conn) error {",
      b!"\tconst queryString = `UPDATE \"test_composite_pkey\" AS p SET (",
      b!"\t\t\"key\"",
      b!"\t\t, \"name\"",
      b!"\t\t, \"fruit\"",
      b!"\t\t, \"value\"",
      b!"\t) = (",
      b!"\t\t$1",
      b!"\t\t, $2",
      b!"\t\t, NULLIF($3, '')::text",
      b!"\t\t, NULLIF($4, 0)::double precision",
      b!"\t)",
      b!"\tWHERE p.\"id\" = $5 AND p.\"key\" = $1 AND p.\"name\" = $2` // `",
      b!"",
      b!"\t_, err := c.Exec(queryString,",
      b!"\t\tq.Data.Key,",
      b!"\t\tq.Data.Name,",
      b!"\t\tq.Data.Fruit,",
      b!"\t\tq.Data.Value,",
      b!"\t\tq.Data.Id,",
      b!"\t)",
      b!"\treturn err",
      b!"}",
      b!""] }

/-- internal/testdata/generator/update/pkey_composite_slice_in.go:7 -/
def update_pkey_composite_slice_0 : List (FieldHdr × Ty) := [
    fld b!"Data" (.slice (.ptr c_ConflictData)) [(b!"rel", [b!"test_composite_pkey:p"])]]

/-- internal/testdata/generator/update/pkey_composite_slice_out.go -/
def update_pkey_composite_slice : Golden :=
  { dir := b!"update"
    file := b!"pkey_composite_slice"
    targets := [(b!"UpdatePKeyCompositeSliceQuery", update_pkey_composite_slice_0)]
    want := [
      b!"// DO NOT EDIT. This file was generated by \"github.com/frk/gosql\".",
      b!"",
      b!"package testdata",
      b!"",
      b!"import (",
      b!"\t\"github.com/frk/gosql\"",
      b!")",
      b!"",
      b!"func (q *UpdatePKeyCompositeSliceQuery) Exec(c gosql.Conn) error {",
      b!"\tvar queryString = `UPDATE \"test_composite_pkey\" AS p SET (",
      b!"\t\t\"key\"",
      b!"\t\t, \"name\"",
      b!"\t\t, \"fruit\"",
      b!"\t\t, \"value\"",
      b!"\t) = (",
      b!"\t\tx.\"key\"",
      b!"\t\t, x.\"name\"",
      b!"\t\t, x.\"fruit\"",
      b!"\t\t, x.\"value\"",
      b!"\t)",
      b!"\tFROM (VALUES` // `",
      b!"",
      b!"\tparams := make([]interface{}, len(q.Data)*5)",
      b!"\tfor i, v := range q.Data {",
      b!"\t\tpos := i * 5",
      b!"",
      b!"\t\tparams[pos+0] = v.Key",
      b!"\t\tparams[pos+1] = v.Name",
      b!"\t\tparams[pos+2] = v.Fruit",
      b!"\t\tparams[pos+3] = v.Value",
      b!"\t\tparams[pos+4] = v.Id",
      b!"",
      b!"\t\tqueryString += `(` + gosql.OrdinalParameters[pos+0] + `::integer` +",
      b!"\t\t\t`, ` + gosql.OrdinalParameters[pos+1] + `::text` +",
      b!"\t\t\t`, NULLIF(` + gosql.OrdinalParameters[pos+2] + `, '')::text` +",
      b!"\t\t\t`, NULLIF(` + gosql.OrdinalParameters[pos+3] + `, 0)::double precision` +",
      b!"\t\t\t`, ` + gosql.OrdinalParameters[pos+4] +",
      b!"\t\t\t`),`",
      b!"\t}",
      b!"",
      b!"\tqueryString = queryString[:len(queryString)-1]",
      b!"\tqueryString += ` ) AS x (",
      b!"\t\t\"key\"",
      b!"\t\t, \"name\"",
      b!"\t\t, \"fruit\"",
      b!"\t\t, \"value\"",
      b!"\t\t, \"id\"",
      b!"\t)",
      b!"\tWHERE p.\"id\" = x.\"id\"::integer AND p.\"key\" = x.\"key\"::integer AND p.\"name\" = x.\"name\"::text` // `",
      b!"",
      b!"\t_, err := c.Exec(queryString, params...)",
      b!"\treturn err",
      b!"}",
      b!""] }

/-- internal/testdata/generator/update/pkey_single_in.go:7 -/
def update_pkey_single_0 : List (FieldHdr × Ty) := [
    fld b!"User" (.ptr c_User3) [(b!"rel", [b!"test_user"])]]

/-- internal/testdata/generator/update/pkey_single_out.go -/
def update_pkey_single : Golden :=
  { dir := b!"update"
    file := b!"pkey_single"
    targets := [(b!"UpdatePKeySingleQuery", update_pkey_single_0)]
    want := [
      b!"// DO NOT EDIT. This file was generated by \"github.com/frk/gosql\".",
      b!"",
      b!"package testdata",
      b!"",
      b!"import (",
      b!"\t\"github.com/frk/gosql\"",
      b!")",
      b!"",
      b!"func (q *UpdatePKeySingleQuery) Exec(c gosql.Conn) error {",
      b!"\tconst queryString = `UPDATE \"test_user\" SET (",
      b!"\t\t\"email\"",
      b!"\t\t, \"password\"",
      b!"\t\t, \"created_at\"",
      b!"\t\t, \"updated_at\"",
      b!"\t) = (",
      b!"\t\t$1",
      b!"\t\t, $2",
      b!"\t\t, $3",
      b!"\t\t, $4",
      b!"\t)",
      b!"\tWHERE \"id\" = $5` // `",
      b!"",
      b!"\t_, err := c.Exec(queryString,",
      b!"\t\tq.User.Email,",
      b!"\t\tq.User.Password,",
      b!"\t\tq.User.CreatedAt,",
      b!"\t\tq.User.UpdatedAt,",
      b!"\t\tq.User.Id,",
      b!"\t)",
      b!"\treturn err",
      b!"}",
      b!""] }

/-- internal/testdata/generator/update/pkey_slice_in.go:7 -/
def update_pkey_slice_0 : List (FieldHdr × Ty) := [
    fld b!"Users" (.slice (.ptr c_User3)) [(b!"rel", [b!"test_user:u"])]]

/-- internal/testdata/generator/update/pkey_slice_out.go -/
def update_pkey_slice : Golden :=
  { dir := b!"update"
    file := b!"pkey_slice"
    targets := [(b!"UpdatePKeySliceQuery", update_pkey_slice_0)]
    want := [
      b!"// DO NOT EDIT. This file was generated by \"github.com/frk/gosql\".",
      b!"",
      b!"package testdata",
      b!"",
      b!"import (",
      b!"\t\"github.com/frk/gosql\"",
      b!")",
      b!"",
      b!"func (q *UpdatePKeySliceQuery) Exec(c gosql.Conn) error {",
      b!"\tvar queryString = `UPDATE \"test_user\" AS u SET (",
      b!"\t\t\"email\"",
      b!"\t\t, \"password\"",
      b!"\t\t, \"created_at\"",
      b!"\t\t, \"updated_at\"",
      b!"\t) = (",
      b!"\t\tx.\"email\"",
      b!"\t\t, x.\"password\"",
      b!"\t\t, x.\"created_at\"",
      b!"\t\t, x.\"updated_at\"",
      b!"\t)",
      b!"\tFROM (VALUES` // `",
      b!"",
      b!"\tparams := make([]interface{}, len(q.Users)*5)",
      b!"\tfor i, v := range q.Users {",
      b!"\t\tpos := i * 5",
      b!"",
      b!"\t\tparams[pos+0] = v.Email",
      b!"\t\tparams[pos+1] = v.Password",
      b!"\t\tparams[pos+2] = v.CreatedAt",
      b!"\t\tparams[pos+3] = v.UpdatedAt",
      b!"\t\tparams[pos+4] = v.Id",
      b!"",
      b!"\t\tqueryString += `(` + gosql.OrdinalParameters[pos+0] + `::text` +",
      b!"\t\t\t`, ` + gosql.OrdinalParameters[pos+1] + `::bytea` +",
      b!"\t\t\t`, ` + gosql.OrdinalParameters[pos+2] + `::timestamp with time zone` +",
      b!"\t\t\t`, ` + gosql.OrdinalParameters[pos+3] + `::timestamp with time zone` +",
      b!"\t\t\t`, ` + gosql.OrdinalParameters[pos+4] +",
      b!"\t\t\t`),`",
      b!"\t}",
      b!"",
      b!"\tqueryString = queryString[:len(queryString)-1]",
      b!"\tqueryString += ` ) AS x (",
      b!"\t\t\"email\"",
      b!"\t\t, \"password\"",
      b!"\t\t, \"created_at\"",
      b!"\t\t, \"updated_at\"",
      b!"\t\t, \"id\"",
      b!"\t)",
      b!"\tWHERE u.\"id\" = x.\"id\"::integer` // `",
      b!"",
      b!"\t_, err := c.Exec(queryString, params...)",
      b!"\treturn err",
      b!"}",
      b!""] }

/-- internal/testdata/generator/update/pkey_returning_all_single_in.go:8 -/
def update_pkey_returning_all_single_0 : List (FieldHdr × Ty) := [
    fld b!"User" (.ptr c_User3) [(b!"rel", [b!"test_user"])],
    low b!"_" g_Return [(b!"sql", [b!"*"])]]

/-- internal/testdata/generator/update/pkey_returning_all_single_out.go -/
def update_pkey_returning_all_single : Golden :=
  { dir := b!"update"
    file := b!"pkey_returning_all_single"
    targets := [(b!"UpdatePKeyReturningAllSingleQuery", update_pkey_returning_all_single_0)]
    want := [
      b!"// DO NOT EDIT. This file was generated by \"github.com/frk/gosql\".",
      b!"",
      b!"package testdata",
      b!"",
      b!"import (",
      b!"\t\"github.com/frk/gosql\"",
      b!")",
      b!"",
      b!"func (q *UpdatePKeyReturningAllSingleQuery) Exec(c gosql.Conn) error {",
      b!"\tconst queryString = `UPDATE \"test_user\" SET (",
      b!"\t\t\"email\"",
      b!"\t\t, \"password\"",
      b!"\t\t, \"created_at\"",
      b!"\t\t, \"updated_at\"",
      b!"\t) = (",
      b!"\t\t$1",
      b!"\t\t, $2",
      b!"\t\t, $3",
      b!"\t\t, $4",
      b!"\t)",
      b!"\tWHERE \"id\" = $5",
      b!"\tRETURNING",
      b!"\t\"id\"",
      b!"\t, \"email\"",
      b!"\t, \"created_at\"",
      b!"\t, \"updated_at\"` // `",
      b!"",
      b!"\trow := c.QueryRow(queryString,",
      b!"\t\tq.User.Email,",
      b!"\t\tq.User.Password,",
      b!"\t\tq.User.CreatedAt,",
      b!"\t\tq.User.UpdatedAt,",
      b!"\t\tq.User.Id,",
      b!"\t)",
      b!"\treturn row.Scan(",
      b!"\t\t&q.User.Id,",
      b!"\t\t&q.User.Email,",
      b!"\t\t&q.User.CreatedAt,",
      b!"\t\t&q.User.UpdatedAt,",
      b!"\t)",
      b!"}",
      b!""] }

/-- internal/testdata/generator/update/whereblock_basic_single_1_in.go:7 -/
def update_whereblock_basic_single_1_0 : List (FieldHdr × Ty) := [
    fld b!"User" (.ptr c_User4) [(b!"rel", [b!"test_user"])],
    fld b!"Where" (.struct (.ofList [
    fld b!"Id" (.basic .int b!"int") [(b!"sql", [b!"id"])]]))]

/-- internal/testdata/generator/update/whereblock_basic_single_1_out.go -/
def update_whereblock_basic_single_1 : Golden :=
  { dir := b!"update"
    file := b!"whereblock_basic_single_1"
    targets := [(b!"UpdateWhereblockBasicSingle1Query", update_whereblock_basic_single_1_0)]
    want := [
      b!"// DO NOT EDIT. This file was generated by \"github.com/frk/gosql\".",
      b!"",
      b!"package testdata",
      b!"",
      b!"import (",
      b!"\t\"github.com/frk/gosql\"",
      b!")",
      b!"",
      b!"func (q *UpdateWhereblockBasicSingle1Query) Exec(c gosql.Conn) error {",
      b!"\tconst queryString = `UPDATE \"test_user\" SET (",
      b!"\t\t\"email\"",
      b!"\t\t, \"full_name\"",
      b!"\t\t, \"is_active\"",
      b!"\t\t, \"created_at\"",
      b!"\t\t, \"updated_at\"",
      b!"\t) = (",
      b!"\t\t$1",
      b!"\t\t, $2",
      b!"\t\t, $3",
      b!"\t\t, $4",
      b!"\t\t, $5",
      b!"\t)",
      b!"\tWHERE \"id\" = $6` // `",
      b!"",
      b!"\t_, err := c.Exec(queryString,",
      b!"\t\tq.User.Email,",
      b!"\t\tq.User.FullName,",
      b!"\t\tq.User.IsActive,",
      b!"\t\tq.User.CreatedAt,",
      b!"\t\tq.User.UpdatedAt,",
      b!"\t\tq.Where.Id,",
      b!"\t)",
      b!"\treturn err",
      b!"}",
      b!""] }

/-- internal/testdata/generator/update/whereblock_basic_single_2_in.go:10 -/
def update_whereblock_basic_single_2_0 : List (FieldHdr × Ty) := [
    fld b!"User" (.ptr c_User4) [(b!"rel", [b!"test_user:u"])],
    fld b!"Where" (.struct (.ofList [
    fld b!"CreatedAfter" time_Time [(b!"sql", [b!"u.created_at >"])],
    fld b!"CreatedBefore" time_Time [(b!"sql", [b!"u.created_at <"])],
    fld b!"FullName" (.struct (.ofList [
    low b!"_" g_Column [(b!"sql", [b!"u.full_name = 'John Doe'"])],
    low b!"_" g_Column [(b!"bool", [b!"or"]), (b!"sql", [b!"u.full_name = 'Jane Doe'"])]])) [(b!"sql", [b!">"])]]))]

/-- internal/testdata/generator/update/whereblock_basic_single_2_out.go -/
def update_whereblock_basic_single_2 : Golden :=
  { dir := b!"update"
    file := b!"whereblock_basic_single_2"
    targets := [(b!"UpdateWhereblockBasicSingle2Query", update_whereblock_basic_single_2_0)]
    want := [
      b!"// DO NOT EDIT. This file was generated by \"github.com/frk/gosql\".",
      b!"",
      b!"package testdata",
      b!"",
      b!"import (",
      b!"\t\"github.com/frk/gosql\"",
      b!")",
      b!"",
      b!"func (q *UpdateWhereblockBasicSingle2Query) Exec(c gosql.Conn) error {",
      b!"\tconst queryString = `UPDATE \"test_user\" AS u SET (",
      b!"\t\t\"email\"",
      b!"\t\t, \"full_name\"",
      b!"\t\t, \"is_active\"",
      b!"\t\t, \"created_at\"",
      b!"\t\t, \"updated_at\"",
      b!"\t) = (",
      b!"\t\t$1",
      b!"\t\t, $2",
      b!"\t\t, $3",
      b!"\t\t, $4",
      b!"\t\t, $5",
      b!"\t)",
      b!"\tWHERE u.\"created_at\" > $6",
      b!"\tAND u.\"created_at\" < $7",
      b!"\tAND (u.\"full_name\" = 'John Doe' OR u.\"full_name\" = 'Jane Doe')` // `",
      b!"",
      b!"\t_, err := c.Exec(queryString,",
      b!"\t\tq.User.Email,",
      b!"\t\tq.User.FullName,",
      b!"\t\tq.User.IsActive,",
      b!"\t\tq.User.CreatedAt,",
      b!"\t\tq.User.UpdatedAt,",
      b!"\t\tq.Where.CreatedAfter,",
      b!"\t\tq.Where.CreatedBefore,",
      b!"\t)",
      b!"\treturn err",
      b!"}",
      b!""] }

/-- internal/testdata/generator/update/whereblock_result_slice_in.go:9 -/
def update_whereblock_result_slice_0 : List (FieldHdr × Ty) := [
    fld b!"User" (.ptr c_User4) [(b!"rel", [b!"test_user:u"])],
    fld b!"Where" (.struct (.ofList [
    fld b!"CreatedAfter" time_Time [(b!"sql", [b!"u.created_at >"])],
    fld b!"CreatedBefore" time_Time [(b!"sql", [b!"u.created_at <"])]])),
    fld b!"Result" (.slice (.ptr c_User4))]

/-- internal/testdata/generator/update/whereblock_result_slice_out.go -/
def update_whereblock_result_slice : Golden :=
  { dir := b!"update"
    file := b!"whereblock_result_slice"
    targets := [(b!"UpdateWhereblockResultSliceQuery", update_whereblock_result_slice_0)]
    want := [
      b!"// DO NOT EDIT. This file was generated by \"github.com/frk/gosql\".",
      b!"",
      b!"package testdata",
      b!"",
      b!"import (",
      b!"\t\"github.com/frk/gosql\"",
      b!"\t\"github.com/frk/gosql/internal/testdata/common\"",
      b!")",
      b!"",
      b!"func (q *UpdateWhereblockResultSliceQuery) Exec(c gosql.Conn) error {",
      b!"\tconst queryString = `UPDATE \"test_user\" AS u SET (",
      b!"\t\t\"email\"",
      b!"\t\t, \"full_name\"",
      b!"\t\t, \"is_active\"",
      b!"\t\t, \"created_at\"",
      b!"\t\t, \"updated_at\"",
      b!"\t) = (",
      b!"\t\t$1",
      b!"\t\t, $2",
      b!"\t\t, $3",
      b!"\t\t, $4",
      b!"\t\t, $5",
      b!"\t)",
      b!"\tWHERE u.\"created_at\" > $6 AND u.\"created_at\" < $7",
      b!"\tRETURNING",
      b!"\tu.\"id\"",
      b!"\t, u.\"email\"",
      b!"\t, u.\"full_name\"",
      b!"\t, u.\"is_active\"",
      b!"\t, u.\"created_at\"",
      b!"\t, u.\"updated_at\"` // `",
      b!"",
      b!"\trows, err := c.Query(queryString,",
      b!"\t\tq.User.Email,",
      b!"\t\tq.User.FullName,",
      b!"\t\tq.User.IsActive,",
      b!"\t\tq.User.CreatedAt,",
      b!"\t\tq.User.UpdatedAt,",
      b!"\t\tq.Where.CreatedAfter,",
      b!"\t\tq.Where.CreatedBefore,",
      b!"\t)",
      b!"\tif err != nil {",
      b!"\t\treturn err",
      b!"\t}",
      b!"\tdefer rows.Close()",
      b!"",
      b!"\tfor rows.Next() {",
      b!"\t\tv := new(common.User4)",
      b!"\t\terr := rows.Scan(",
      b!"\t\t\t&v.Id,",
      b!"\t\t\t&v.Email,",
      b!"\t\t\t&v.FullName,",
      b!"\t\t\t&v.IsActive,",
      b!"\t\t\t&v.CreatedAt,",
      b!"\t\t\t&v.UpdatedAt,",
      b!"\t\t)",
      b!"\t\tif err != nil {",
      b!"\t\t\treturn err",
      b!"\t\t}",
      b!"",
      b!"\t\tq.Result = append(q.Result, v)",
      b!"\t}",
      b!"\treturn rows.Err()",
      b!"}",
      b!""] }

/-- internal/testdata/generator/update/whereblock_returning_all_single_in.go:8 -/
def update_whereblock_returning_all_single_0 : List (FieldHdr × Ty) := [
    fld b!"User" (.ptr c_User4) [(b!"rel", [b!"test_user:u"])],
    fld b!"Where" (.struct (.ofList [
    fld b!"Id" (.basic .int b!"int") [(b!"sql", [b!"u.id"])]])),
    low b!"_" g_Return [(b!"sql", [b!"*"])]]

/-- internal/testdata/generator/update/whereblock_returning_all_single_out.go -/
def update_whereblock_returning_all_single : Golden :=
  { dir := b!"update"
    file := b!"whereblock_returning_all_single"
    targets := [(b!"UpdateWhereblockReturningAllSingleQuery", update_whereblock_returning_all_single_0)]
    want := [
      b!"// DO NOT EDIT. This file was generated by \"github.com/frk/gosql\".",
      b!"",
      b!"package testdata",
      b!"",
      b!"import (",
      b!"\t\"github.com/frk/gosql\"",
      b!")",
      b!"",
      b!"func (q *UpdateWhereblockReturningAllSingleQuery) Exec(c gosql.Conn) error {",
      b!"\tconst queryString = `UPDATE \"test_user\" AS u SET (",
      b!"\t\t\"email\"",
      b!"\t\t, \"full_name\"",
      b!"\t\t, \"is_active\"",
      b!"\t\t, \"created_at\"",
      b!"\t\t, \"updated_at\"",
      b!"\t) = (",
      b!"\t\t$1",
      b!"\t\t, $2",
      b!"\t\t, $3",
      b!"\t\t, $4",
      b!"\t\t, $5",
      b!"\t)",
      b!"\tWHERE u.\"id\" = $6",
      b!"\tRETURNING",
      b!"\tu.\"id\"",
      b!"\t, u.\"email\"",
      b!"\t, u.\"full_name\"",
      b!"\t, u.\"is_active\"",
      b!"\t, u.\"created_at\"",
      b!"\t, u.\"updated_at\"` // `",
      b!"",
      b!"\trow := c.QueryRow(queryString,",
      b!"\t\tq.User.Email,",
      b!"\t\tq.User.FullName,",
      b!"\t\tq.User.IsActive,",
      b!"\t\tq.User.CreatedAt,",
      b!"\t\tq.User.UpdatedAt,",
      b!"\t\tq.Where.Id,",
      b!"\t)",
      b!"\treturn row.Scan(",
      b!"\t\t&q.User.Id,",
      b!"\t\t&q.User.Email,",
      b!"\t\t&q.User.FullName,",
      b!"\t\t&q.User.IsActive,",
      b!"\t\t&q.User.CreatedAt,",
      b!"\t\t&q.User.UpdatedAt,",
      b!"\t)",
      b!"}",
      b!""] }

/-- internal/testdata/generator/update/nullif_slice_in.go:7 -/
def update_nullif_slice_0 : List (FieldHdr × Ty) := [
    fld b!"Data" (.slice (.ptr c_ConflictData)) [(b!"rel", [b!"test_onconflict:k"])]]

/-- internal/testdata/generator/update/nullif_slice_out.go -/
def update_nullif_slice : Golden :=
  { dir := b!"update"
    file := b!"nullif_slice"
    targets := [(b!"UpdateNullIfSliceQuery", update_nullif_slice_0)]
    want := [
      b!"// DO NOT EDIT. This file was generated by \"github.com/frk/gosql\".",
      b!"",
      b!"package testdata",
      b!"",
      b!"import (",
      b!"\t\"github.com/frk/gosql\"",
      b!")",
      b!"",
      b!"func (q *UpdateNullIfSliceQuery) Exec(c gosql.Conn) error {",
      b!"\tvar queryString = `UPDATE \"test_onconflict\" AS k SET (",
      b!"\t\t\"key\"",
      b!"\t\t, \"name\"",
      b!"\t\t, \"fruit\"",
      b!"\t\t, \"value\"",
      b!"\t) = (",
      b!"\t\tx.\"key\"",
      b!"\t\t, x.\"name\"",
      b!"\t\t, x.\"fruit\"",
      b!"\t\t, x.\"value\"",
      b!"\t)",
      b!"\tFROM (VALUES` // `",
      b!"",
      b!"\tparams := make([]interface{}, len(q.Data)*5)",
      b!"\tfor i, v := range q.Data {",
      b!"\t\tpos := i * 5",
      b!"",
      b!"\t\tparams[pos+0] = v.Key",
      b!"\t\tparams[pos+1] = v.Name",
      b!"\t\tparams[pos+2] = v.Fruit",
      b!"\t\tparams[pos+3] = v.Value",
      b!"\t\tparams[pos+4] = v.Id",
      b!"",
      b!"\t\tqueryString += `(NULLIF(` + gosql.OrdinalParameters[pos+0] + `, 0)::integer` +",
      b!"\t\t\t`, NULLIF(` + gosql.OrdinalParameters[pos+1] + `, '')::text` +",
      b!"\t\t\t`, NULLIF(` + gosql.OrdinalParameters[pos+2] + `, '')::text` +",
      b!"\t\t\t`, NULLIF(` + gosql.OrdinalParameters[pos+3] + `, 0)::double precision` +",
      b!"\t\t\t`, ` + gosql.OrdinalParameters[pos+4] +",
      b!"\t\t\t`),`",
      b!"\t}",
      b!"",
      b!"\tqueryString = queryString[:len(queryString)-1]",
      b!"\tqueryString += ` ) AS x (",
      b!"\t\t\"key\"",
      b!"\t\t, \"name\"",
      b!"\t\t, \"fruit\"",
      b!"\t\t, \"value\"",
      b!"\t\t, \"id\"",
      b!"\t)",
      b!"\tWHERE k.\"id\" = x.\"id\"::integer` // `",
      b!"",
      b!"\t_, err := c.Exec(queryString, params...)",
      b!"\treturn err",
      b!"}",
      b!""] }

def updateGoldens0 : List Golden := [
  update_all_single, update_filter_single, update_filter_result_slice,
  update_fromblock_basic_single]

def updateGoldens1 : List Golden := [
  update_fromblock_join_single, update_pkey_composite_single, update_pkey_composite_slice,
  update_pkey_single]

def updateGoldens2 : List Golden := [
  update_pkey_slice, update_pkey_returning_all_single, update_whereblock_basic_single_1,
  update_whereblock_basic_single_2]

def updateGoldens3 : List Golden := [
  update_whereblock_result_slice, update_whereblock_returning_all_single, update_nullif_slice]

def updateGoldens : List Golden :=
  updateGoldens0 ++ updateGoldens1 ++ updateGoldens2 ++ updateGoldens3

end Verif.Conform
