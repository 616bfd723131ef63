import Verif.Conform.FilterBase

/-
The tests of package filter, /repo/filter/filter_test.go: TestFilter (lines 41-374) and Test_toTSQuery
(lines 392-407). Written by /verif/tools/filtercases.py.
-/
namespace Verif.Conform.FilterTest
open Verif Verif.Filter

/-- The cases of TestFilter. -/
def cases : List Case :=
  [{ name := b!"test_fql_1"
     body := [.fql b!"a:true"]
     want := .sql b!" WHERE col_a IS TRUE"
        [] },
   { name := b!"test_fql_2"
     body := [.fql b!"b:!true"]
     want := .sql b!" WHERE col_b IS NOT TRUE"
        [] },
   { name := b!"test_fql_3"
     body := [.fql b!"c:!false;d:false"]
     want := .sql b!" WHERE col_c IS NOT FALSE AND col_d IS FALSE"
        [] },
   { name := b!"test_fql_4"
     body := [.fql b!"a:null;b:!null"]
     want := .sql b!" WHERE col_a IS NULL AND col_b IS NOT NULL"
        [] },
   { name := b!"test_fql_5"
     body := [.fql b!"a:>18"]
     want := .sql b!" WHERE col_a > $1"
        [i64 (18)] },
   { name := b!"test_fql_6"
     body := [.fql b!"b:>=-90"]
     want := .sql b!" WHERE col_b >= $1"
        [i64 (-90)] },
   { name := b!"test_fql_7"
     body := [.fql b!"c:<-45.004532"]
     want := .sql b!" WHERE col_c < $1"
        [.v (.float64 b!"-45.004532")] },
   { name := b!"test_fql_8"
     body := [.fql b!"d:<=d1257894000"]
     want := .sql b!" WHERE col_d <= $1"
        [.v (.time 1257894000)] },
   { name := b!"test_fql_9"
     body := [.fql b!"e:!\"John Doe\""]
     want := .sql b!" WHERE col_e <> $1"
        [.v (.myString b!"John Doe")] },
   { name := b!"test_fql_10"
     body := [.fql b!"(a:123)"]
     want := .sql b!" WHERE (col_a = $1)"
        [i64 (123)] },
   { name := b!"test_fql_11"
     body := [.fql b!"(a:123),b:456"]
     want := .sql b!" WHERE (col_a = $1) OR col_b = $2"
        [i64 123, i64 456] },
   { name := b!"test_fql_12"
     body := [.fql b!"a:123;(b:456,c:789)"]
     want := .sql b!" WHERE col_a = $1 AND (col_b = $2 OR col_c = $3)"
        [i64 123, i64 456, i64 789] },
   { name := b!"test_fql_13"
     body := [.fql b!"a:123;(b:456,c:789)"]
     pos := 24
     want := .sql b!" WHERE col_a = $25 AND (col_b = $26 OR col_c = $27)"
        [i64 123, i64 456, i64 789] },
   { name := b!"test_fql_14"
     body := [.fql b!"a:1;(b:2,(c:3;d:4;(e:5,f:6)),(g:7;h:8));(i:9,j:0)"]
     want := .sql b!" WHERE col_a = $1 AND (col_b = $2 OR (col_c = $3 AND col_d = $4 AND (col_e = $5 OR col_f = $6)) OR (col_g = $7 AND col_h = $8)) AND (col_i = $9 OR col_j = $10)"
        [i64 1, i64 2, i64 3, i64 4, i64 5, i64 6, i64 7, i64 8, i64 9, i64 0] },
   { name := b!"test_fql_15"
     body := [.fql b!"a:1;(b:2,(c:3;d:4;(e:5,f:6)),(g:7;h:8));(i:9,j:0)"]
     pos := 10
     want := .sql b!" WHERE col_a = $11 AND (col_b = $12 OR (col_c = $13 AND col_d = $14 AND (col_e = $15 OR col_f = $16)) OR (col_g = $17 AND col_h = $18)) AND (col_i = $19 OR col_j = $20)"
        [i64 1, i64 2, i64 3, i64 4, i64 5, i64 6, i64 7, i64 8, i64 9, i64 0] },
   { name := b!"test_fql_error_1"
     body := [.fql b!"foo:1"]
     want := .err (.unknownKey b!"foo") },
   { name := b!"test_fql_error_2"
     body := [.fql b!"a:123;(b:456,x:789)"]
     want := .err (.unknownKey b!"x") },
   { name := b!"test_sort_1"
     body := [.sort b!"-a"]
     want := .sql b!" ORDER BY col_a DESC NULLS LAST"
        [] },
   { name := b!"test_sort_2"
     body := [.sort b!"a,b,-c"]
     want := .sql b!" ORDER BY col_a ASC NULLS LAST, col_b ASC, col_c DESC"
        [] },
   { name := b!"test_sort_3"
     body := [.sort b!"-c,b,a"]
     want := .sql b!" ORDER BY col_c DESC, col_b ASC, col_a ASC NULLS LAST"
        [] },
   { name := b!"test_sort_error_1"
     body := [.sort b!"-c,b,x"]
     want := .err (.unknownKey b!"x") },
   { name := b!"test_sort_error_2"
     body := [.sort b!"foo"]
     want := .err (.unknownKey b!"foo") },
   { name := b!"test_text_search_1"
     body := [.call (.textSearch b!"foo bar")]
     want := .sql b!" WHERE t.\"tsvec\" @@ to_tsquery('simple', $1)"
        [str b!"foo:* & bar:*"] },
   { name := b!"test_text_search_2"
     body := [.call (.textSearch b!"foo"),
       .call (.or),
       .call (.textSearch b!"bar")]
     want := .sql b!" WHERE t.\"tsvec\" @@ to_tsquery('simple', $1) OR t.\"tsvec\" @@ to_tsquery('simple', $2)"
        [str b!"foo:*", str b!"bar:*"] },
   { name := b!"test_text_search_3"
     body := [.call (.textSearch b!"foo bar"),
       .fqlDrop b!"(a:>123;b:!null)"]
     want := .sql b!" WHERE t.\"tsvec\" @@ to_tsquery('simple', $1) AND (col_a > $2 AND col_b IS NOT NULL)"
        [str b!"foo:* & bar:*", i64 (123)] },
   { name := b!"test_and"
     body := [.call (colI b!"col_a" b!"=" 123),
       .call (.andNest [colI b!"col_b" b!"=" 123, .andNest [colI b!"col_c" b!"=" 123], colI b!"col_d" b!"=" 123]),
       .call (colI b!"col_e" b!"=" 123)]
     want := .sql b!" WHERE col_a = $1 AND (col_b = $2 AND (col_c = $3) AND col_d = $4) AND col_e = $5"
        [int 123, int 123, int 123, int 123, int 123] },
   { name := b!"test_and_2"
     body := [.call (.andNest [colI b!"col_a" b!"=" 123, .or, colI b!"col_a" b!"=" 0]),
       .call (.andNest [colI b!"col_b" b!"=" 876, .or, colI b!"col_b" b!"=" 0])]
     want := .sql b!" WHERE (col_a = $1 OR col_a = $2) AND (col_b = $3 OR col_b = $4)"
        [int 123, int 0, int 876, int 0] },
   { name := b!"test_or"
     body := [.call (colI b!"col_a" b!"=" 123),
       .call (.orNest [colI b!"col_b" b!"=" 123, .orNest [colI b!"col_c" b!"=" 123, colI b!"col_d" b!"=" 123]]),
       .call (colI b!"col_e" b!"=" 123)]
     want := .sql b!" WHERE col_a = $1 OR (col_b = $2 OR (col_c = $3 AND col_d = $4)) AND col_e = $5"
        [int 123, int 123, int 123, int 123, int 123] },
   { name := b!"test_order_by_1"
     body := [.call (.orderBy b!"col_a" true true)]
     want := .sql b!" ORDER BY col_a DESC NULLS FIRST"
        [] },
   { name := b!"test_order_by_2"
     body := [.call (.orderBy b!"col_b" false true)]
     want := .sql b!" ORDER BY col_b ASC NULLS FIRST"
        [] },
   { name := b!"test_order_by_3"
     body := [.call (.orderBy b!"col_c" true false)]
     want := .sql b!" ORDER BY col_c DESC NULLS LAST"
        [] },
   { name := b!"test_order_by_4"
     body := [.call (.orderBy b!"col_d" false false)]
     want := .sql b!" ORDER BY col_d ASC NULLS LAST"
        [] },
   { name := b!"test_order_by_5"
     body := [.call (.orderBy b!"col_a" true true),
       .call (.orderBy b!"col_b" false true),
       .call (.orderBy b!"col_c" true false),
       .call (.orderBy b!"col_d" false false)]
     want := .sql b!" ORDER BY col_a DESC NULLS FIRST, col_b ASC NULLS FIRST, col_c DESC NULLS LAST, col_d ASC NULLS LAST"
        [] },
   { name := b!"test_full"
     body := [.fql b!"a:>123;b:!null",
       .sort b!"-c",
       .call (colI b!"col_d" b!"<=" 123),
       .call (.orNest [colI b!"col_e" b!">" 10, colI b!"col_e" b!"<" 20]),
       .call (.or),
       .call (.textSearch b!"foo bar baz"),
       .call (.limit 5),
       .call (.offset 10)]
     want := .sql b!" WHERE col_a > $1 AND col_b IS NOT NULL AND col_d <= $2 OR (col_e > $3 AND col_e < $4) OR t.\"tsvec\" @@ to_tsquery('simple', $5) ORDER BY col_c DESC LIMIT 5 OFFSET 10"
        [i64 (123), int 123, int 10, int 20, str b!"foo:* & bar:* & baz:*"] },
   { name := b!"test_=any"
     body := [.fql b!"a:>123;b:!null",
       .sort b!"-c",
       .call (.andNest [.col b!"col_d" b!"any" (.slice .int [.int 123, .int 3543, .int 920348, .int 28]), .or, .col b!"col_e" b!"any" (.slice .int [.int 123, .int 3543, .int 920348, .int 28]), .or, .col b!"col_f" b!"in" (.slice .string [.string b!"foo", .string b!"bar", .string b!"baz"])]),
       .call (.limit 5),
       .call (.offset 10)]
     want := .sql b!" WHERE col_a > $1 AND col_b IS NOT NULL AND (col_d = ANY($2::int4[]) OR col_e = ANY($3::int4[]) OR col_f IN ($4,$5,$6)) ORDER BY col_c DESC LIMIT 5 OFFSET 10"
        [i64 (123), .array .int [.int 123, .int 3543, .int 920348, .int 28], .array .int [.int 123, .int 3543, .int 920348, .int 28], str b!"foo", str b!"bar", str b!"baz"] }]

/-- The cases of Test_toTSQuery (/repo/filter/filter_test.go:396-400). -/
def tsCases : List (Bytes × Bytes) :=
  [(b!"", b!""),
   (b!"foo", b!"foo:*"),
   (b!"foo bar", b!"foo:* & bar:*"),
   (b!" foo   bar   ", b!"foo:* & bar:*"),
   (b!" foo   bar   baz", b!"foo:* & bar:* & baz:*")]

end Verif.Conform.FilterTest
