import Verif.Postgres.Types

/-
The database of the tests: the tables of /repo/internal/postgres/testing.go, and the rows of the catalogs
of PostgreSQL that they need.

This file is written by /verif/tools/conform.py; do not edit it by hand.
-/
namespace Verif.Conform
open Verif.Postgres

/-- The rows of pg_type that are used. -/
def testTypes : List PgType := [
  { oid := 16, nameFmt := b!"boolean", typ := 'b', category := 'B' },
  { oid := 1000, nameFmt := b!"boolean[]", typ := 'b', category := 'A', elem := 16 },
  { oid := 17, nameFmt := b!"bytea", typ := 'b', category := 'U' },
  { oid := 1001, nameFmt := b!"bytea[]", typ := 'b', category := 'A', elem := 17 },
  { oid := 18, nameFmt := b!"\"char\"", typ := 'b', category := 'S' },
  { oid := 1002, nameFmt := b!"\"char\"[]", typ := 'b', category := 'A', elem := 18 },
  { oid := 19, nameFmt := b!"name", typ := 'b', category := 'S', elem := 18 },
  { oid := 1003, nameFmt := b!"name[]", typ := 'b', category := 'A', elem := 19 },
  { oid := 20, nameFmt := b!"bigint", typ := 'b', category := 'N' },
  { oid := 1016, nameFmt := b!"bigint[]", typ := 'b', category := 'A', elem := 20 },
  { oid := 21, nameFmt := b!"smallint", typ := 'b', category := 'N' },
  { oid := 1005, nameFmt := b!"smallint[]", typ := 'b', category := 'A', elem := 21 },
  { oid := 22, nameFmt := b!"int2vector", typ := 'b', category := 'A', elem := 21 },
  { oid := 1006, nameFmt := b!"int2vector[]", typ := 'b', category := 'A', elem := 22 },
  { oid := 23, nameFmt := b!"integer", typ := 'b', category := 'N' },
  { oid := 1007, nameFmt := b!"integer[]", typ := 'b', category := 'A', elem := 23 },
  { oid := 25, nameFmt := b!"text", typ := 'b', category := 'S' },
  { oid := 1009, nameFmt := b!"text[]", typ := 'b', category := 'A', elem := 25 },
  { oid := 26, nameFmt := b!"oid", typ := 'b', category := 'N' },
  { oid := 1028, nameFmt := b!"oid[]", typ := 'b', category := 'A', elem := 26 },
  { oid := 114, nameFmt := b!"json", typ := 'b', category := 'U' },
  { oid := 199, nameFmt := b!"json[]", typ := 'b', category := 'A', elem := 114 },
  { oid := 142, nameFmt := b!"xml", typ := 'b', category := 'U' },
  { oid := 143, nameFmt := b!"xml[]", typ := 'b', category := 'A', elem := 142 },
  { oid := 600, nameFmt := b!"point", typ := 'b', category := 'G', elem := 701 },
  { oid := 1017, nameFmt := b!"point[]", typ := 'b', category := 'A', elem := 600 },
  { oid := 601, nameFmt := b!"lseg", typ := 'b', category := 'G', elem := 600 },
  { oid := 1018, nameFmt := b!"lseg[]", typ := 'b', category := 'A', elem := 601 },
  { oid := 602, nameFmt := b!"path", typ := 'b', category := 'G' },
  { oid := 1019, nameFmt := b!"path[]", typ := 'b', category := 'A', elem := 602 },
  { oid := 603, nameFmt := b!"box", typ := 'b', category := 'G', elem := 600 },
  { oid := 1020, nameFmt := b!"box[]", typ := 'b', category := 'A', elem := 603 },
  { oid := 604, nameFmt := b!"polygon", typ := 'b', category := 'G' },
  { oid := 1027, nameFmt := b!"polygon[]", typ := 'b', category := 'A', elem := 604 },
  { oid := 628, nameFmt := b!"line", typ := 'b', category := 'G', elem := 701 },
  { oid := 629, nameFmt := b!"line[]", typ := 'b', category := 'A', elem := 628 },
  { oid := 650, nameFmt := b!"cidr", typ := 'b', category := 'I' },
  { oid := 651, nameFmt := b!"cidr[]", typ := 'b', category := 'A', elem := 650 },
  { oid := 700, nameFmt := b!"real", typ := 'b', category := 'N' },
  { oid := 1021, nameFmt := b!"real[]", typ := 'b', category := 'A', elem := 700 },
  { oid := 701, nameFmt := b!"double precision", typ := 'b', category := 'N' },
  { oid := 1022, nameFmt := b!"double precision[]", typ := 'b', category := 'A', elem := 701 },
  { oid := 705, nameFmt := b!"unknown", typ := 'p', category := 'X' },
  { oid := 718, nameFmt := b!"circle", typ := 'b', category := 'G' },
  { oid := 719, nameFmt := b!"circle[]", typ := 'b', category := 'A', elem := 718 },
  { oid := 774, nameFmt := b!"macaddr8", typ := 'b', category := 'U' },
  { oid := 775, nameFmt := b!"macaddr8[]", typ := 'b', category := 'A', elem := 774 },
  { oid := 790, nameFmt := b!"money", typ := 'b', category := 'N' },
  { oid := 791, nameFmt := b!"money[]", typ := 'b', category := 'A', elem := 790 },
  { oid := 829, nameFmt := b!"macaddr", typ := 'b', category := 'U' },
  { oid := 1040, nameFmt := b!"macaddr[]", typ := 'b', category := 'A', elem := 829 },
  { oid := 869, nameFmt := b!"inet", typ := 'b', category := 'I' },
  { oid := 1041, nameFmt := b!"inet[]", typ := 'b', category := 'A', elem := 869 },
  { oid := 1042, nameFmt := b!"character", typ := 'b', category := 'S' },
  { oid := 1014, nameFmt := b!"character[]", typ := 'b', category := 'A', elem := 1042 },
  { oid := 1043, nameFmt := b!"character varying", typ := 'b', category := 'S' },
  { oid := 1015, nameFmt := b!"character varying[]", typ := 'b', category := 'A', elem := 1043 },
  { oid := 1082, nameFmt := b!"date", typ := 'b', category := 'D' },
  { oid := 1182, nameFmt := b!"date[]", typ := 'b', category := 'A', elem := 1082 },
  { oid := 1083, nameFmt := b!"time without time zone", typ := 'b', category := 'D' },
  { oid := 1183, nameFmt := b!"time without time zone[]", typ := 'b', category := 'A', elem := 1083 },
  { oid := 1114, nameFmt := b!"timestamp without time zone", typ := 'b', category := 'D' },
  { oid := 1115, nameFmt := b!"timestamp without time zone[]", typ := 'b', category := 'A', elem := 1114 },
  { oid := 1184, nameFmt := b!"timestamp with time zone", typ := 'b', category := 'D' },
  { oid := 1185, nameFmt := b!"timestamp with time zone[]", typ := 'b', category := 'A', elem := 1184 },
  { oid := 1186, nameFmt := b!"interval", typ := 'b', category := 'T' },
  { oid := 1187, nameFmt := b!"interval[]", typ := 'b', category := 'A', elem := 1186 },
  { oid := 1266, nameFmt := b!"time with time zone", typ := 'b', category := 'D' },
  { oid := 1270, nameFmt := b!"time with time zone[]", typ := 'b', category := 'A', elem := 1266 },
  { oid := 1560, nameFmt := b!"bit", typ := 'b', category := 'V' },
  { oid := 1561, nameFmt := b!"bit[]", typ := 'b', category := 'A', elem := 1560 },
  { oid := 1562, nameFmt := b!"bit varying", typ := 'b', category := 'V' },
  { oid := 1563, nameFmt := b!"bit varying[]", typ := 'b', category := 'A', elem := 1562 },
  { oid := 1700, nameFmt := b!"numeric", typ := 'b', category := 'N' },
  { oid := 1231, nameFmt := b!"numeric[]", typ := 'b', category := 'A', elem := 1700 },
  { oid := 2950, nameFmt := b!"uuid", typ := 'b', category := 'U' },
  { oid := 2951, nameFmt := b!"uuid[]", typ := 'b', category := 'A', elem := 2950 },
  { oid := 3614, nameFmt := b!"tsvector", typ := 'b', category := 'U' },
  { oid := 3643, nameFmt := b!"tsvector[]", typ := 'b', category := 'A', elem := 3614 },
  { oid := 3615, nameFmt := b!"tsquery", typ := 'b', category := 'U' },
  { oid := 3645, nameFmt := b!"tsquery[]", typ := 'b', category := 'A', elem := 3615 },
  { oid := 3802, nameFmt := b!"jsonb", typ := 'b', category := 'U' },
  { oid := 3807, nameFmt := b!"jsonb[]", typ := 'b', category := 'A', elem := 3802 },
  { oid := 3904, nameFmt := b!"int4range", typ := 'r', category := 'R' },
  { oid := 3905, nameFmt := b!"int4range[]", typ := 'b', category := 'A', elem := 3904 },
  { oid := 3906, nameFmt := b!"numrange", typ := 'r', category := 'R' },
  { oid := 3907, nameFmt := b!"numrange[]", typ := 'b', category := 'A', elem := 3906 },
  { oid := 3908, nameFmt := b!"tsrange", typ := 'r', category := 'R' },
  { oid := 3909, nameFmt := b!"tsrange[]", typ := 'b', category := 'A', elem := 3908 },
  { oid := 3910, nameFmt := b!"tstzrange", typ := 'r', category := 'R' },
  { oid := 3911, nameFmt := b!"tstzrange[]", typ := 'b', category := 'A', elem := 3910 },
  { oid := 3912, nameFmt := b!"daterange", typ := 'r', category := 'R' },
  { oid := 3913, nameFmt := b!"daterange[]", typ := 'b', category := 'A', elem := 3912 },
  { oid := 3926, nameFmt := b!"int8range", typ := 'r', category := 'R' },
  { oid := 3927, nameFmt := b!"int8range[]", typ := 'b', category := 'A', elem := 3926 },
  { oid := 16501, nameFmt := b!"color_enum", typ := 'e', category := 'E' },
  { oid := 16502, nameFmt := b!"color_enum[]", typ := 'b', category := 'A', elem := 16501 },
  { oid := 16503, nameFmt := b!"css_styles", typ := 'c', category := 'C' },
  { oid := 16504, nameFmt := b!"css_styles[]", typ := 'b', category := 'A', elem := 16503 }]

/-- The rows of pg_operator: the operand types of each operator. -/
def testOps : List (Bytes × List (Nat × Nat)) := [
  (b!"=",
   [(16, 16),
    (18, 18),
    (19, 19),
    (20, 20),
    (21, 21),
    (23, 23),
    (25, 25),
    (26, 26),
    (700, 700),
    (701, 701),
    (774, 774),
    (790, 790),
    (829, 829),
    (869, 869),
    (1042, 1042),
    (1082, 1082),
    (1083, 1083),
    (1114, 1114),
    (1184, 1184),
    (1186, 1186),
    (1266, 1266),
    (1560, 1560),
    (1562, 1562),
    (1700, 1700),
    (2950, 2950),
    (3614, 3614),
    (3615, 3615),
    (3802, 3802),
    (17, 17),
    (601, 601),
    (603, 603),
    (718, 718),
    (602, 602),
    (628, 628),
    (21, 23),
    (21, 20),
    (23, 21),
    (23, 20),
    (20, 21),
    (20, 23),
    (700, 701),
    (701, 700),
    (19, 25),
    (25, 19),
    (1082, 1114),
    (1082, 1184),
    (1114, 1082),
    (1114, 1184),
    (1184, 1082),
    (1184, 1114),
    (2277, 2277),
    (3500, 3500),
    (3831, 3831)]),
  (b!"<>",
   [(16, 16),
    (18, 18),
    (19, 19),
    (20, 20),
    (21, 21),
    (23, 23),
    (25, 25),
    (26, 26),
    (700, 700),
    (701, 701),
    (774, 774),
    (790, 790),
    (829, 829),
    (869, 869),
    (1042, 1042),
    (1082, 1082),
    (1083, 1083),
    (1114, 1114),
    (1184, 1184),
    (1186, 1186),
    (1266, 1266),
    (1560, 1560),
    (1562, 1562),
    (1700, 1700),
    (2950, 2950),
    (3614, 3614),
    (3615, 3615),
    (3802, 3802),
    (17, 17),
    (601, 601),
    (603, 603),
    (718, 718),
    (602, 602),
    (21, 23),
    (21, 20),
    (23, 21),
    (23, 20),
    (20, 21),
    (20, 23),
    (700, 701),
    (701, 700),
    (19, 25),
    (25, 19),
    (1082, 1114),
    (1082, 1184),
    (1114, 1082),
    (1114, 1184),
    (1184, 1082),
    (1184, 1114),
    (2277, 2277),
    (3500, 3500),
    (3831, 3831)]),
  (b!"<",
   [(16, 16),
    (18, 18),
    (19, 19),
    (20, 20),
    (21, 21),
    (23, 23),
    (25, 25),
    (26, 26),
    (700, 700),
    (701, 701),
    (774, 774),
    (790, 790),
    (829, 829),
    (869, 869),
    (1042, 1042),
    (1082, 1082),
    (1083, 1083),
    (1114, 1114),
    (1184, 1184),
    (1186, 1186),
    (1266, 1266),
    (1560, 1560),
    (1562, 1562),
    (1700, 1700),
    (2950, 2950),
    (3614, 3614),
    (3615, 3615),
    (3802, 3802),
    (17, 17),
    (601, 601),
    (603, 603),
    (718, 718),
    (602, 602),
    (21, 23),
    (21, 20),
    (23, 21),
    (23, 20),
    (20, 21),
    (20, 23),
    (700, 701),
    (701, 700),
    (19, 25),
    (25, 19),
    (1082, 1114),
    (1082, 1184),
    (1114, 1082),
    (1114, 1184),
    (1184, 1082),
    (1184, 1114),
    (2277, 2277),
    (3500, 3500),
    (3831, 3831)]),
  (b!">",
   [(16, 16),
    (18, 18),
    (19, 19),
    (20, 20),
    (21, 21),
    (23, 23),
    (25, 25),
    (26, 26),
    (700, 700),
    (701, 701),
    (774, 774),
    (790, 790),
    (829, 829),
    (869, 869),
    (1042, 1042),
    (1082, 1082),
    (1083, 1083),
    (1114, 1114),
    (1184, 1184),
    (1186, 1186),
    (1266, 1266),
    (1560, 1560),
    (1562, 1562),
    (1700, 1700),
    (2950, 2950),
    (3614, 3614),
    (3615, 3615),
    (3802, 3802),
    (17, 17),
    (601, 601),
    (603, 603),
    (718, 718),
    (602, 602),
    (21, 23),
    (21, 20),
    (23, 21),
    (23, 20),
    (20, 21),
    (20, 23),
    (700, 701),
    (701, 700),
    (19, 25),
    (25, 19),
    (1082, 1114),
    (1082, 1184),
    (1114, 1082),
    (1114, 1184),
    (1184, 1082),
    (1184, 1114),
    (2277, 2277),
    (3500, 3500),
    (3831, 3831)]),
  (b!"<=",
   [(16, 16),
    (18, 18),
    (19, 19),
    (20, 20),
    (21, 21),
    (23, 23),
    (25, 25),
    (26, 26),
    (700, 700),
    (701, 701),
    (774, 774),
    (790, 790),
    (829, 829),
    (869, 869),
    (1042, 1042),
    (1082, 1082),
    (1083, 1083),
    (1114, 1114),
    (1184, 1184),
    (1186, 1186),
    (1266, 1266),
    (1560, 1560),
    (1562, 1562),
    (1700, 1700),
    (2950, 2950),
    (3614, 3614),
    (3615, 3615),
    (3802, 3802),
    (17, 17),
    (601, 601),
    (603, 603),
    (718, 718),
    (602, 602),
    (21, 23),
    (21, 20),
    (23, 21),
    (23, 20),
    (20, 21),
    (20, 23),
    (700, 701),
    (701, 700),
    (19, 25),
    (25, 19),
    (1082, 1114),
    (1082, 1184),
    (1114, 1082),
    (1114, 1184),
    (1184, 1082),
    (1184, 1114),
    (2277, 2277),
    (3500, 3500),
    (3831, 3831)]),
  (b!">=",
   [(16, 16),
    (18, 18),
    (19, 19),
    (20, 20),
    (21, 21),
    (23, 23),
    (25, 25),
    (26, 26),
    (700, 700),
    (701, 701),
    (774, 774),
    (790, 790),
    (829, 829),
    (869, 869),
    (1042, 1042),
    (1082, 1082),
    (1083, 1083),
    (1114, 1114),
    (1184, 1184),
    (1186, 1186),
    (1266, 1266),
    (1560, 1560),
    (1562, 1562),
    (1700, 1700),
    (2950, 2950),
    (3614, 3614),
    (3615, 3615),
    (3802, 3802),
    (17, 17),
    (601, 601),
    (603, 603),
    (718, 718),
    (602, 602),
    (21, 23),
    (21, 20),
    (23, 21),
    (23, 20),
    (20, 21),
    (20, 23),
    (700, 701),
    (701, 700),
    (19, 25),
    (25, 19),
    (1082, 1114),
    (1082, 1184),
    (1114, 1082),
    (1114, 1184),
    (1184, 1082),
    (1184, 1114),
    (2277, 2277),
    (3500, 3500),
    (3831, 3831)]),
  (b!"~", [(25, 25), (1042, 25), (19, 25)]),
  (b!"~*", [(25, 25), (1042, 25), (19, 25)]),
  (b!"!~", [(25, 25), (1042, 25), (19, 25)]),
  (b!"!~*", [(25, 25), (1042, 25), (19, 25)]),
  (b!"~~", [(25, 25), (1042, 25), (19, 25), (17, 17)]),
  (b!"!~~", [(25, 25), (1042, 25), (19, 25), (17, 17)]),
  (b!"~~*", [(25, 25), (1042, 25), (19, 25)]),
  (b!"!~~*", [(25, 25), (1042, 25), (19, 25)])]

/-- The rows of pg_cast. -/
def testCasts : List (Nat × Nat × Char) := [
  (20, 21, 'a'), (20, 23, 'a'), (20, 700, 'i'), (20, 701, 'i'), (20, 1700, 'i'), (21, 20, 'i'),
  (21, 23, 'i'), (21, 700, 'i'), (21, 701, 'i'), (21, 1700, 'i'), (23, 20, 'i'), (23, 21, 'a'),
  (23, 700, 'i'), (23, 701, 'i'), (23, 1700, 'i'), (700, 20, 'a'), (700, 21, 'a'), (700, 23, 'a'),
  (700, 701, 'i'), (700, 1700, 'a'), (701, 20, 'a'), (701, 21, 'a'), (701, 23, 'a'),
  (701, 700, 'a'), (701, 1700, 'a'), (1700, 20, 'a'), (1700, 21, 'a'), (1700, 23, 'a'),
  (1700, 700, 'i'), (1700, 701, 'i'), (790, 1700, 'a'), (1700, 790, 'a'), (23, 790, 'a'),
  (20, 790, 'a'), (23, 16, 'e'), (16, 23, 'e'), (25, 1042, 'i'), (25, 1043, 'i'), (1042, 25, 'i'),
  (1042, 1043, 'i'), (1043, 25, 'i'), (1043, 1042, 'i'), (18, 25, 'i'), (19, 25, 'i'),
  (18, 1042, 'a'), (19, 1042, 'a'), (18, 1043, 'a'), (19, 1043, 'a'), (25, 18, 'a'),
  (1042, 18, 'a'), (1043, 18, 'a'), (25, 19, 'i'), (1042, 19, 'i'), (1043, 19, 'i'),
  (18, 23, 'e'), (23, 18, 'e'), (1082, 1114, 'i'), (1082, 1184, 'i'), (1083, 1186, 'i'),
  (1083, 1266, 'i'), (1114, 1082, 'a'), (1114, 1083, 'a'), (1114, 1184, 'i'), (1184, 1082, 'a'),
  (1184, 1083, 'a'), (1184, 1114, 'a'), (1184, 1266, 'a'), (1186, 1083, 'a'), (1266, 1083, 'a'),
  (650, 869, 'i'), (869, 650, 'a'), (650, 25, 'a'), (869, 25, 'a'), (16, 25, 'a'), (142, 25, 'a'),
  (25, 142, 'e'), (650, 1043, 'a'), (869, 1043, 'a'), (16, 1043, 'a'), (142, 1043, 'a'),
  (1043, 142, 'e'), (1042, 142, 'e'), (1560, 1562, 'i'), (1562, 1560, 'i'), (20, 1560, 'e'),
  (23, 1560, 'e'), (1560, 20, 'e'), (1560, 23, 'e'), (829, 774, 'i'), (774, 829, 'i'),
  (114, 3802, 'a'), (3802, 114, 'a'), (602, 604, 'a'), (604, 602, 'a'), (603, 604, 'a'),
  (600, 603, 'a'), (1042, 1042, 'i'), (1043, 1043, 'i'), (1083, 1083, 'i'), (1114, 1114, 'i'),
  (1184, 1184, 'i'), (1186, 1186, 'i'), (1266, 1266, 'i'), (1560, 1560, 'i'), (1562, 1562, 'i'),
  (1700, 1700, 'i')]

/-- /repo/internal/postgres/testing.go -/
def rel_relation_test : RawRel :=
  { relKind := 'r'
    columns := [
      { num := 1, name := b!"col_stub", typeOid := 1042, typeMod := 5 }] }

/-- /repo/internal/postgres/testing.go -/
def rel_column_tests_1 : RawRel :=
  { relKind := 'r'
    columns := [
      { num := 1, name := b!"col_a", typeOid := 23, hasNotNull := true, hasDefault := true, isPrimary := true },
      { num := 2, name := b!"col_b", typeOid := 25, hasNotNull := true },
      { num := 3, name := b!"col_c", typeOid := 16 },
      { num := 4, name := b!"col_d", typeOid := 701, hasDefault := true },
      { num := 5, name := b!"col_e", typeOid := 1114, hasNotNull := true, hasDefault := true }]
    constraints := [
      { name := b!"column_tests_1_pkey", typ := 'p' },
      { name := b!"column_tests_1_col_b_key", typ := 'u' }]
    indexes := [
      { name := b!"column_tests_1_pkey", key := [1], isUnique := true, isPrimary := true
        definition := b!"CREATE UNIQUE INDEX column_tests_1_pkey ON public.column_tests_1 USING btree (col_a)" },
      { name := b!"column_tests_1_col_b_key", key := [2], isUnique := true
        definition := b!"CREATE UNIQUE INDEX column_tests_1_col_b_key ON public.column_tests_1 USING btree (col_b)" }] }

/-- /repo/internal/postgres/testing.go -/
def rel_column_tests_2 : RawRel :=
  { relKind := 'r'
    columns := [
      { num := 1, name := b!"col_text_search_ok", typeOid := 3614 },
      { num := 2, name := b!"col_text_search_bad", typeOid := 25 },
      { num := 3, name := b!"col_orderby_a", typeOid := 25 },
      { num := 4, name := b!"col_orderby_b", typeOid := 23 },
      { num := 5, name := b!"col_foo", typeOid := 23, hasDefault := true },
      { num := 6, name := b!"col_bar", typeOid := 25, hasDefault := true },
      { num := 7, name := b!"col_baz", typeOid := 16, hasNotNull := true, hasDefault := true },
      { num := 8, name := b!"col_indkey1", typeOid := 25 },
      { num := 9, name := b!"col_indkey2", typeOid := 23 },
      { num := 10, name := b!"col_indkey3", typeOid := 23 },
      { num := 11, name := b!"col_conkey1", typeOid := 25 },
      { num := 12, name := b!"col_conkey2", typeOid := 23 }]
    constraints := [
      { name := b!"column_tests_2_unique_constraint", typ := 'u' },
      { name := b!"column_tests_2_nonunique_constraint", typ := 'f' }]
    indexes := [
      { name := b!"column_tests_2_unique_index", key := [9, 8], isUnique := true
        definition := b!"CREATE UNIQUE INDEX column_tests_2_unique_index ON public.column_tests_2 USING btree (col_indkey2, col_indkey1)" },
      { name := b!"column_tests_2_nonunique_index", key := [10, 9, 8]
        definition := b!"CREATE INDEX column_tests_2_nonunique_index ON public.column_tests_2 USING btree (col_indkey3, col_indkey2, col_indkey1)" },
      { name := b!"column_tests_2_unique_constraint", key := [11, 12], isUnique := true
        definition := b!"CREATE UNIQUE INDEX column_tests_2_unique_constraint ON public.column_tests_2 USING btree (col_conkey1, col_conkey2)" }] }

/-- /repo/internal/postgres/testing.go -/
def rel_column_tests_3 : RawRel :=
  { relKind := 'r'
    columns := [
      { num := 1, name := b!"color_text", typeOid := 25 },
      { num := 2, name := b!"color_enum", typeOid := 16501 },
      { num := 3, name := b!"some_time", typeOid := 1114, hasNotNull := true }] }

/-- /repo/internal/postgres/testing.go -/
def rel_column_tests_4 : RawRel :=
  { relKind := 'r'
    columns := [
      { num := 1, name := b!"color_text", typeOid := 25 },
      { num := 2, name := b!"color_enum", typeOid := 16501 },
      { num := 3, name := b!"h1_styles", typeOid := 16503 },
      { num := 4, name := b!"some_time", typeOid := 1114, hasNotNull := true }] }

/-- /repo/internal/postgres/testing.go -/
def rel_column_type_tests : RawRel :=
  { relKind := 'r'
    columns := [
      { num := 1, name := b!"col_bool", typeOid := 16 },
      { num := 2, name := b!"col_boola", typeOid := 1000 },
      { num := 3, name := b!"col_float4", typeOid := 700 },
      { num := 4, name := b!"col_float4a", typeOid := 1021 },
      { num := 5, name := b!"col_float8", typeOid := 701 },
      { num := 6, name := b!"col_float8a", typeOid := 1022 },
      { num := 7, name := b!"col_int2", typeOid := 21 },
      { num := 8, name := b!"col_int2a", typeOid := 1005 },
      { num := 9, name := b!"col_int4", typeOid := 23 },
      { num := 10, name := b!"col_int4a", typeOid := 1007 },
      { num := 11, name := b!"col_int8", typeOid := 20 },
      { num := 12, name := b!"col_int8a", typeOid := 1016 },
      { num := 13, name := b!"col_text", typeOid := 25 },
      { num := 14, name := b!"col_texta", typeOid := 1009 }] }

/-- /repo/internal/postgres/testing.go -/
def rel_test_user : RawRel :=
  { relKind := 'r'
    columns := [
      { num := 1, name := b!"id", typeOid := 23, hasNotNull := true, hasDefault := true, isPrimary := true },
      { num := 2, name := b!"email", typeOid := 25, hasNotNull := true },
      { num := 3, name := b!"full_name", typeOid := 25, hasNotNull := true },
      { num := 4, name := b!"password", typeOid := 17, hasNotNull := true, hasDefault := true },
      { num := 5, name := b!"is_active", typeOid := 16, hasNotNull := true, hasDefault := true },
      { num := 6, name := b!"metadata1", typeOid := 114, hasNotNull := true, hasDefault := true },
      { num := 7, name := b!"metadata2", typeOid := 3802 },
      { num := 8, name := b!"envelope", typeOid := 142 },
      { num := 9, name := b!"_search_document", typeOid := 3614 },
      { num := 10, name := b!"created_at", typeOid := 1184, hasNotNull := true },
      { num := 11, name := b!"updated_at", typeOid := 1184, hasNotNull := true, hasDefault := true }]
    constraints := [
      { name := b!"test_user_pkey", typ := 'p' }]
    indexes := [
      { name := b!"test_user_pkey", key := [1], isUnique := true, isPrimary := true
        definition := b!"CREATE UNIQUE INDEX test_user_pkey ON public.test_user USING btree (id)" }] }

/-- /repo/internal/postgres/testing.go -/
def rel_test_user_with_defaults : RawRel :=
  { relKind := 'r'
    columns := [
      { num := 1, name := b!"id", typeOid := 23, hasNotNull := true, hasDefault := true, isPrimary := true },
      { num := 2, name := b!"email", typeOid := 25, hasNotNull := true, hasDefault := true },
      { num := 3, name := b!"full_name", typeOid := 25, hasNotNull := true, hasDefault := true },
      { num := 4, name := b!"is_active", typeOid := 16, hasNotNull := true, hasDefault := true },
      { num := 5, name := b!"created_at", typeOid := 1184, hasNotNull := true, hasDefault := true },
      { num := 6, name := b!"updated_at", typeOid := 1184, hasNotNull := true, hasDefault := true }]
    constraints := [
      { name := b!"test_user_with_defaults_pkey", typ := 'p' }]
    indexes := [
      { name := b!"test_user_with_defaults_pkey", key := [1], isUnique := true, isPrimary := true
        definition := b!"CREATE UNIQUE INDEX test_user_with_defaults_pkey ON public.test_user_with_defaults USING btree (id)" }] }

/-- /repo/internal/postgres/testing.go -/
def rel_test_post : RawRel :=
  { relKind := 'r'
    columns := [
      { num := 1, name := b!"id", typeOid := 23, hasNotNull := true, hasDefault := true, isPrimary := true },
      { num := 2, name := b!"user_id", typeOid := 23, hasNotNull := true },
      { num := 3, name := b!"content", typeOid := 25, hasNotNull := true },
      { num := 4, name := b!"is_spam", typeOid := 16, hasNotNull := true },
      { num := 5, name := b!"created_at", typeOid := 1184, hasNotNull := true }]
    constraints := [
      { name := b!"test_post_pkey", typ := 'p' },
      { name := b!"test_post_user_id_fkey", typ := 'f' }]
    indexes := [
      { name := b!"test_post_pkey", key := [1], isUnique := true, isPrimary := true
        definition := b!"CREATE UNIQUE INDEX test_post_pkey ON public.test_post USING btree (id)" }] }

/-- /repo/internal/postgres/testing.go -/
def rel_test_nested : RawRel :=
  { relKind := 'r'
    columns := [
      { num := 1, name := b!"foo_bar_baz_val", typeOid := 25, hasNotNull := true, hasDefault := true },
      { num := 2, name := b!"foo_baz_val", typeOid := 25, hasNotNull := true, hasDefault := true },
      { num := 3, name := b!"foo2_bar_baz_val", typeOid := 25, hasNotNull := true, hasDefault := true },
      { num := 4, name := b!"foo2_baz_val", typeOid := 25, hasNotNull := true, hasDefault := true }] }

/-- /repo/internal/postgres/testing.go -/
def rel_test_join1 : RawRel :=
  { relKind := 'r'
    columns := [
      { num := 1, name := b!"id", typeOid := 23, hasNotNull := true, hasDefault := true, isPrimary := true },
      { num := 2, name := b!"post_id", typeOid := 23, hasNotNull := true }]
    constraints := [
      { name := b!"test_join1_pkey", typ := 'p' },
      { name := b!"test_join1_post_id_fkey", typ := 'f' }]
    indexes := [
      { name := b!"test_join1_pkey", key := [1], isUnique := true, isPrimary := true
        definition := b!"CREATE UNIQUE INDEX test_join1_pkey ON public.test_join1 USING btree (id)" }] }

/-- /repo/internal/postgres/testing.go -/
def rel_test_join2 : RawRel :=
  { relKind := 'r'
    columns := [
      { num := 1, name := b!"id", typeOid := 23, hasNotNull := true, hasDefault := true, isPrimary := true },
      { num := 2, name := b!"join1_id", typeOid := 23, hasNotNull := true }]
    constraints := [
      { name := b!"test_join2_pkey", typ := 'p' },
      { name := b!"test_join2_join1_id_fkey", typ := 'f' }]
    indexes := [
      { name := b!"test_join2_pkey", key := [1], isUnique := true, isPrimary := true
        definition := b!"CREATE UNIQUE INDEX test_join2_pkey ON public.test_join2 USING btree (id)" }] }

/-- /repo/internal/postgres/testing.go -/
def rel_test_join3 : RawRel :=
  { relKind := 'r'
    columns := [
      { num := 1, name := b!"id", typeOid := 23, hasNotNull := true, hasDefault := true, isPrimary := true },
      { num := 2, name := b!"join2_id", typeOid := 23, hasNotNull := true }]
    constraints := [
      { name := b!"test_join3_pkey", typ := 'p' },
      { name := b!"test_join3_join2_id_fkey", typ := 'f' }]
    indexes := [
      { name := b!"test_join3_pkey", key := [1], isUnique := true, isPrimary := true
        definition := b!"CREATE UNIQUE INDEX test_join3_pkey ON public.test_join3 USING btree (id)" }] }

/-- /repo/internal/postgres/testing.go -/
def rel_test_join4 : RawRel :=
  { relKind := 'r'
    columns := [
      { num := 1, name := b!"id", typeOid := 23, hasNotNull := true, hasDefault := true, isPrimary := true },
      { num := 2, name := b!"join3_id", typeOid := 23, hasNotNull := true }]
    constraints := [
      { name := b!"test_join4_pkey", typ := 'p' },
      { name := b!"test_join4_join3_id_fkey", typ := 'f' }]
    indexes := [
      { name := b!"test_join4_pkey", key := [1], isUnique := true, isPrimary := true
        definition := b!"CREATE UNIQUE INDEX test_join4_pkey ON public.test_join4 USING btree (id)" }] }

/-- /repo/internal/postgres/testing.go -/
def rel_test_coalesce : RawRel :=
  { relKind := 'r'
    columns := [
      { num := 1, name := b!"col_a", typeOid := 25 },
      { num := 2, name := b!"col_b", typeOid := 25, hasNotNull := true },
      { num := 3, name := b!"col_c", typeOid := 23 },
      { num := 4, name := b!"col_d", typeOid := 1114 },
      { num := 5, name := b!"col_e", typeOid := 16501 }] }

/-- /repo/internal/postgres/testing.go -/
def rel_view_test : RawRel :=
  { relKind := 'v'
    columns := [
      { num := 1, name := b!"col_a", typeOid := 23 },
      { num := 2, name := b!"col_b", typeOid := 25 },
      { num := 3, name := b!"col_c", typeOid := 16 },
      { num := 4, name := b!"col_d", typeOid := 701 },
      { num := 5, name := b!"col_e", typeOid := 1114 },
      { num := 6, name := b!"col_z", typeOid := 16 }] }

/-- /repo/internal/postgres/testing.go -/
def rel_test_onconflict : RawRel :=
  { relKind := 'r'
    columns := [
      { num := 1, name := b!"id", typeOid := 23, hasNotNull := true, hasDefault := true, isPrimary := true },
      { num := 2, name := b!"key", typeOid := 23 },
      { num := 3, name := b!"name", typeOid := 25 },
      { num := 4, name := b!"fruit", typeOid := 25 },
      { num := 5, name := b!"value", typeOid := 701 }]
    constraints := [
      { name := b!"test_onconflict_pkey", typ := 'p' },
      { name := b!"test_onconflict_key_value_key", typ := 'u' }]
    indexes := [
      { name := b!"test_onconflict_pkey", key := [1], isUnique := true, isPrimary := true
        definition := b!"CREATE UNIQUE INDEX test_onconflict_pkey ON public.test_onconflict USING btree (id)" },
      { name := b!"test_onconflict_key_idx", key := [2], isUnique := true
        definition := b!"CREATE UNIQUE INDEX test_onconflict_key_idx ON public.test_onconflict USING btree (key)" },
      { name := b!"test_onconflict_key_name_idx", key := [2, 3], isUnique := true
        definition := b!"CREATE UNIQUE INDEX test_onconflict_key_name_idx ON public.test_onconflict USING btree (key, name)" },
      { name := b!"test_onconflict_name_fruit_idx", key := [0, 0], isUnique := true
        definition := b!"CREATE UNIQUE INDEX test_onconflict_name_fruit_idx ON public.test_onconflict USING btree (lower(name), upper(fruit) COLLATE \"C\" text_pattern_ops)" },
      { name := b!"test_onconflict_fruit_key_name_idx", key := [0, 2, 0], isUnique := true
        definition := b!"CREATE UNIQUE INDEX test_onconflict_fruit_key_name_idx ON public.test_onconflict USING btree (lower(fruit), key, upper(name)) WHERE (key < 5)"
        predicate := b!"key < 5" },
      { name := b!"test_onconflict_key_value_key", key := [2, 5], isUnique := true
        definition := b!"CREATE UNIQUE INDEX test_onconflict_key_value_key ON public.test_onconflict USING btree (key, value)" }] }

/-- /repo/internal/postgres/testing.go -/
def rel_test_composite_pkey : RawRel :=
  { relKind := 'r'
    columns := [
      { num := 1, name := b!"id", typeOid := 23, hasNotNull := true, hasDefault := true, isPrimary := true },
      { num := 2, name := b!"key", typeOid := 23, hasNotNull := true, isPrimary := true },
      { num := 3, name := b!"name", typeOid := 25, hasNotNull := true, isPrimary := true },
      { num := 4, name := b!"fruit", typeOid := 25 },
      { num := 5, name := b!"value", typeOid := 701 }]
    constraints := [
      { name := b!"test_composite_pkey_pkey", typ := 'p' }]
    indexes := [
      { name := b!"test_composite_pkey_pkey", key := [1, 2, 3], isUnique := true, isPrimary := true
        definition := b!"CREATE UNIQUE INDEX test_composite_pkey_pkey ON public.test_composite_pkey USING btree (id, key, name)" }] }

/-- /repo/internal/postgres/testing.go -/
def rel_pgsql_test : RawRel :=
  { relKind := 'r'
    columns := [
      { num := 1, name := b!"id", typeOid := 23, hasNotNull := true, hasDefault := true, isPrimary := true },
      { num := 2, name := b!"col_bit", typeOid := 1560, typeMod := 1 },
      { num := 3, name := b!"col_bool", typeOid := 16 },
      { num := 4, name := b!"col_bpchar", typeOid := 1042, typeMod := 5 },
      { num := 5, name := b!"col_bpchar3", typeOid := 1042, typeMod := 7 },
      { num := 6, name := b!"col_char", typeOid := 1042, typeMod := 5 },
      { num := 7, name := b!"col_char3", typeOid := 1042, typeMod := 7 },
      { num := 8, name := b!"col_cidr", typeOid := 650 },
      { num := 9, name := b!"col_date", typeOid := 1082 },
      { num := 10, name := b!"col_inet", typeOid := 869 },
      { num := 11, name := b!"col_interval", typeOid := 1186 },
      { num := 12, name := b!"col_macaddr", typeOid := 829 },
      { num := 13, name := b!"col_macaddr8", typeOid := 774 },
      { num := 14, name := b!"col_money", typeOid := 790 },
      { num := 15, name := b!"col_numeric", typeOid := 1700 },
      { num := 16, name := b!"col_text", typeOid := 25 },
      { num := 17, name := b!"col_time", typeOid := 1083 },
      { num := 18, name := b!"col_timestamp", typeOid := 1114 },
      { num := 19, name := b!"col_timestamptz", typeOid := 1184 },
      { num := 20, name := b!"col_timetz", typeOid := 1266 },
      { num := 21, name := b!"col_tsquery", typeOid := 3615 },
      { num := 22, name := b!"col_tsvector", typeOid := 3614 },
      { num := 23, name := b!"col_uuid", typeOid := 2950 },
      { num := 24, name := b!"col_varbit", typeOid := 1562 },
      { num := 25, name := b!"col_varbit1", typeOid := 1562, typeMod := 1 },
      { num := 26, name := b!"col_varchar", typeOid := 1043 },
      { num := 27, name := b!"col_varchar1", typeOid := 1043, typeMod := 5 },
      { num := 28, name := b!"col_bitarr", typeOid := 1561, typeMod := 1, hasDefault := true },
      { num := 29, name := b!"col_boolarr", typeOid := 1000, hasDefault := true },
      { num := 30, name := b!"col_boxarr", typeOid := 1020, hasDefault := true },
      { num := 31, name := b!"col_bpchararr", typeOid := 1014, typeMod := 5, hasDefault := true },
      { num := 32, name := b!"col_bpchar3arr", typeOid := 1014, typeMod := 7, hasDefault := true },
      { num := 33, name := b!"col_bytea", typeOid := 17, hasDefault := true },
      { num := 34, name := b!"col_byteaarr", typeOid := 1001, hasDefault := true },
      { num := 35, name := b!"col_chararr", typeOid := 1014, typeMod := 5, hasDefault := true },
      { num := 36, name := b!"col_char3arr", typeOid := 1014, typeMod := 7, hasDefault := true },
      { num := 37, name := b!"col_cidrarr", typeOid := 651, hasDefault := true },
      { num := 38, name := b!"col_circlearr", typeOid := 719, hasDefault := true },
      { num := 39, name := b!"col_datearr", typeOid := 1182, hasDefault := true },
      { num := 40, name := b!"col_daterangearr", typeOid := 3913, hasDefault := true },
      { num := 41, name := b!"col_float4arr", typeOid := 1021, hasDefault := true },
      { num := 42, name := b!"col_float8arr", typeOid := 1022, hasDefault := true },
      { num := 43, name := b!"col_inetarr", typeOid := 1041, hasDefault := true },
      { num := 44, name := b!"col_int2arr", typeOid := 1005, hasDefault := true },
      { num := 45, name := b!"col_int2vector", typeOid := 22, hasDefault := true },
      { num := 46, name := b!"col_int2vectorarr", typeOid := 1006, hasDefault := true },
      { num := 47, name := b!"col_int4arr", typeOid := 1007, hasDefault := true },
      { num := 48, name := b!"col_int4rangearr", typeOid := 3905, hasDefault := true },
      { num := 49, name := b!"col_int8arr", typeOid := 1016, hasDefault := true },
      { num := 50, name := b!"col_int8rangearr", typeOid := 3927, hasDefault := true },
      { num := 51, name := b!"col_intervalarr", typeOid := 1187, hasDefault := true },
      { num := 52, name := b!"col_jsonarr", typeOid := 199, hasDefault := true },
      { num := 53, name := b!"col_jsonbarr", typeOid := 3807, hasDefault := true },
      { num := 54, name := b!"col_linearr", typeOid := 629, hasDefault := true },
      { num := 55, name := b!"col_lsegarr", typeOid := 1018, hasDefault := true },
      { num := 56, name := b!"col_macaddrarr", typeOid := 1040, hasDefault := true },
      { num := 57, name := b!"col_macaddr8arr", typeOid := 775, hasDefault := true },
      { num := 58, name := b!"col_moneyarr", typeOid := 791, hasDefault := true },
      { num := 59, name := b!"col_numericarr", typeOid := 1231, hasDefault := true },
      { num := 60, name := b!"col_numrangearr", typeOid := 3907, hasDefault := true },
      { num := 61, name := b!"col_patharr", typeOid := 1019, hasDefault := true },
      { num := 62, name := b!"col_pointarr", typeOid := 1017, hasDefault := true },
      { num := 63, name := b!"col_polygonarr", typeOid := 1027, hasDefault := true },
      { num := 64, name := b!"col_textarr", typeOid := 1009, hasDefault := true },
      { num := 65, name := b!"col_timearr", typeOid := 1183, hasDefault := true },
      { num := 66, name := b!"col_timestamparr", typeOid := 1115, hasDefault := true },
      { num := 67, name := b!"col_timestamptzarr", typeOid := 1185, hasDefault := true },
      { num := 68, name := b!"col_timetzarr", typeOid := 1270, hasDefault := true },
      { num := 69, name := b!"col_tsqueryarr", typeOid := 3645, hasDefault := true },
      { num := 70, name := b!"col_tsrangearr", typeOid := 3909, hasDefault := true },
      { num := 71, name := b!"col_tstzrangearr", typeOid := 3911, hasDefault := true },
      { num := 72, name := b!"col_tsvectorarr", typeOid := 3643, hasDefault := true },
      { num := 73, name := b!"col_uuidarr", typeOid := 2951, hasDefault := true },
      { num := 74, name := b!"col_varbitarr", typeOid := 1563, hasDefault := true },
      { num := 75, name := b!"col_varbit1arr", typeOid := 1563, typeMod := 1, hasDefault := true },
      { num := 76, name := b!"col_varchararr", typeOid := 1015, hasDefault := true },
      { num := 77, name := b!"col_varchar1arr", typeOid := 1015, typeMod := 5, hasDefault := true },
      { num := 78, name := b!"col_xmlarr", typeOid := 143, hasDefault := true },
      { num := 79, name := b!"col_box", typeOid := 603, hasDefault := true },
      { num := 80, name := b!"col_circle", typeOid := 718, hasDefault := true },
      { num := 81, name := b!"col_line", typeOid := 628, hasDefault := true },
      { num := 82, name := b!"col_lseg", typeOid := 601, hasDefault := true },
      { num := 83, name := b!"col_path", typeOid := 602, hasDefault := true },
      { num := 84, name := b!"col_point", typeOid := 600, hasDefault := true },
      { num := 85, name := b!"col_polygon", typeOid := 604, hasDefault := true },
      { num := 86, name := b!"col_daterange", typeOid := 3912, hasDefault := true },
      { num := 87, name := b!"col_int4range", typeOid := 3904, hasDefault := true },
      { num := 88, name := b!"col_int8range", typeOid := 3926, hasDefault := true },
      { num := 89, name := b!"col_numrange", typeOid := 3906, hasDefault := true },
      { num := 90, name := b!"col_tsrange", typeOid := 3908, hasDefault := true },
      { num := 91, name := b!"col_tstzrange", typeOid := 3910, hasDefault := true },
      { num := 92, name := b!"col_json", typeOid := 114, hasDefault := true },
      { num := 93, name := b!"col_jsonb", typeOid := 3802, hasDefault := true },
      { num := 94, name := b!"col_xml", typeOid := 142, hasDefault := true }]
    constraints := [
      { name := b!"pgsql_test_pkey", typ := 'p' }]
    indexes := [
      { name := b!"pgsql_test_pkey", key := [1], isUnique := true, isPrimary := true
        definition := b!"CREATE UNIQUE INDEX pgsql_test_pkey ON public.pgsql_test USING btree (id)" }] }

/-- The tables, found by their names and by their names in the schema. -/
def testRels : List (Bytes × RawRel) := [
  (b!"relation_test", rel_relation_test), (b!"public.relation_test", rel_relation_test),
  (b!"column_tests_1", rel_column_tests_1), (b!"public.column_tests_1", rel_column_tests_1),
  (b!"column_tests_2", rel_column_tests_2), (b!"public.column_tests_2", rel_column_tests_2),
  (b!"column_tests_3", rel_column_tests_3), (b!"public.column_tests_3", rel_column_tests_3),
  (b!"column_tests_4", rel_column_tests_4), (b!"public.column_tests_4", rel_column_tests_4),
  (b!"column_type_tests", rel_column_type_tests), (b!"public.column_type_tests", rel_column_type_tests),
  (b!"test_user", rel_test_user), (b!"public.test_user", rel_test_user),
  (b!"test_user_with_defaults", rel_test_user_with_defaults), (b!"public.test_user_with_defaults", rel_test_user_with_defaults),
  (b!"test_post", rel_test_post), (b!"public.test_post", rel_test_post),
  (b!"test_nested", rel_test_nested), (b!"public.test_nested", rel_test_nested),
  (b!"test_join1", rel_test_join1), (b!"public.test_join1", rel_test_join1),
  (b!"test_join2", rel_test_join2), (b!"public.test_join2", rel_test_join2),
  (b!"test_join3", rel_test_join3), (b!"public.test_join3", rel_test_join3),
  (b!"test_join4", rel_test_join4), (b!"public.test_join4", rel_test_join4),
  (b!"test_coalesce", rel_test_coalesce), (b!"public.test_coalesce", rel_test_coalesce),
  (b!"view_test", rel_view_test), (b!"public.view_test", rel_view_test),
  (b!"test_onconflict", rel_test_onconflict), (b!"public.test_onconflict", rel_test_onconflict),
  (b!"test_composite_pkey", rel_test_composite_pkey), (b!"public.test_composite_pkey", rel_test_composite_pkey),
  (b!"pgsql_test", rel_pgsql_test), (b!"public.pgsql_test", rel_pgsql_test)]

/-- The functions of one argument. -/
def testProcs : List Proc := [
  ⟨b!"lower", 25, 25⟩, ⟨b!"lower", 3831, 2283⟩, ⟨b!"upper", 25, 25⟩, ⟨b!"upper", 3831, 2283⟩,
  ⟨b!"increment", 23, 23⟩]

end Verif.Conform
