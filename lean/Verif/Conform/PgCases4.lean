import Verif.Conform.PgServer

/-
Cases of the tests of package pgsql, /repo/pgsql/*_test.go. Written by /verif/tools/pgsqlcases.py.
-/
namespace Verif.Conform.Codec
open Verif Verif.Pgsql Verif.PgServer

/-- /repo/pgsql/timetz_test.go: 4 cases with a valuer and a scanner, 0 texts. -/
def timetzFile : File where
  name := "timetz_test.go"
  col := timetz
  cases := [
    ⟨26, .text b!"21:05:33+01", fun r => decide (timeToString timetzLayout [] (asTimetz r) = b!"21:05:33+01:00")⟩,
    ⟨29, .text b!"04:05:06.789-08", fun r => decide (timeToString timetzLayout [] (asTimetz r) = b!"04:05:06.789-08:00")⟩,
    ⟨36, .text b!"21:05:33+01", fun r => decide (timeToString timetzLayout [] (asTimetz r) = b!"21:05:33+01:00")⟩,
    ⟨39, .text b!"04:05:06.789-08", fun r => decide (timeToString timetzLayout [] (asTimetz r) = b!"04:05:06.789-08:00")⟩]
  texts := []

theorem timetz_ok : timetzFile.ok = true := by decide +kernel

/-- /repo/pgsql/timetzarr_test.go: 0 cases with a valuer and a scanner, 6 texts. -/
def timetzarrFile : File where
  name := "timetzarr_test.go"
  col := arrayOf timetz
  cases := []
  texts := [
    (33, b!"{}", b!"{}"),
    (34, b!"{04:05:06.789-08}", b!"{04:05:06.789-08}"),
    (37, b!"{21:05:33-08,04:05:06.789+04}", b!"{21:05:33-08,04:05:06.789+04}"),
    (43, b!"{}", b!"{}"),
    (44, b!"{04:05:06.789-08}", b!"{04:05:06.789-08}"),
    (47, b!"{21:05:33-08,04:05:06.789+04}", b!"{21:05:33-08,04:05:06.789+04}")]

theorem timetzarr_ok : timetzarrFile.ok = true := by decide +kernel

/-- /repo/pgsql/tsquery_test.go: 0 cases with a valuer and a scanner, 6 texts. -/
def tsqueryFile : File where
  name := "tsquery_test.go"
  col := keep
  cases := []
  texts := [
    (10, b!"'fat'", b!"'fat'"),
    (11, b!"'fat' & 'rat'", b!"'fat' & 'rat'"),
    (12, b!"'fat':AB & ( 'rat' | 'cat' ) & !'bat':*", b!"'fat':AB & ( 'rat' | 'cat' ) & !'bat':*"),
    (18, b!"'fat'", b!"'fat'"),
    (19, b!"'fat' & 'rat'", b!"'fat' & 'rat'"),
    (20, b!"'fat':AB & ( 'rat' | 'cat' ) & !'bat':*", b!"'fat':AB & ( 'rat' | 'cat' ) & !'bat':*")]

theorem tsquery_ok : tsqueryFile.ok = true := by decide +kernel

/-- /repo/pgsql/tsqueryarr_test.go: 10 cases with a valuer and a scanner, 8 texts. -/
def tsqueryarrFile : File where
  name := "tsqueryarr_test.go"
  col := arrayOf keep
  cases := [
    ⟨14, tsQueryFromStrings none, fun r => gives (tsQueryToStrings none r) none⟩,
    ⟨15, tsQueryFromStrings (some []), fun r => gives (tsQueryToStrings none r) (some [])⟩,
    ⟨16, tsQueryFromStrings (some [b!"'rat'"]), fun r => gives (tsQueryToStrings none r) (some [b!"'rat'"])⟩,
    ⟨19, tsQueryFromStrings (some [b!"'fat' & 'rat'", b!"'bat':AB"]), fun r => gives (tsQueryToStrings none r) (some [b!"'fat' & 'rat'", b!"'bat':AB"])⟩,
    ⟨22, tsQueryFromStrings (some [b!"!'fat':* & !'rat'", b!"'bat' | 'bad'"]), fun r => gives (tsQueryToStrings none r) (some [b!"!'fat':* & !'rat'", b!"'bat' | 'bad'"])⟩,
    ⟨30, tsQueryFromBytes none, fun r => gives (tsQueryToBytes none r) none⟩,
    ⟨31, tsQueryFromBytes (some []), fun r => gives (tsQueryToBytes none r) (some [])⟩,
    ⟨32, tsQueryFromBytes (some [(some b!"'rat'")]), fun r => gives (tsQueryToBytes none r) (some [(some b!"'rat'")])⟩,
    ⟨35, tsQueryFromBytes (some [(some b!"'fat' & 'rat'"), (some b!"'bat':AB")]), fun r => gives (tsQueryToBytes none r) (some [(some b!"'fat' & 'rat'"), (some b!"'bat':AB")])⟩,
    ⟨38, tsQueryFromBytes (some [(some b!"!'fat':* & !'rat'"), (some b!"'bat' | 'bad'")]), fun r => gives (tsQueryToBytes none r) (some [(some b!"!'fat':* & !'rat'"), (some b!"'bat' | 'bad'")])⟩]
  texts := [
    (44, b!"{}", b!"{}"),
    (45, b!"{'rat'}", b!"{'rat'}"),
    (46, b!"{\"'fat' & 'rat'\",'bat':AB}", b!"{\"'fat' & 'rat'\",'bat':AB}"),
    (49, b!"{\"!'fat':* & !'rat'\",\"'bat' | 'bad'\"}", b!"{\"!'fat':* & !'rat'\",\"'bat' | 'bad'\"}"),
    (55, b!"{}", b!"{}"),
    (56, b!"{'rat'}", b!"{'rat'}"),
    (57, b!"{\"'fat' & 'rat'\",'bat':AB}", b!"{\"'fat' & 'rat'\",'bat':AB}"),
    (60, b!"{\"!'fat':* & !'rat'\",\"'bat' | 'bad'\"}", b!"{\"!'fat':* & !'rat'\",\"'bat' | 'bad'\"}")]

theorem tsqueryarr_ok : tsqueryarrFile.ok = true := by decide +kernel

/-- /repo/pgsql/tsrange_test.go: 1 cases with a valuer and a scanner, 2 texts. -/
def tsrangeFile : File where
  name := "tsrange_test.go"
  col := rangeOf timestamp
  cases := [
    ⟨13, .text (stampRangeValue timestampLayout ({ year := 1999, month := 1, day := 8, hour := 21, minute := 5, second := 33, nano := 0 }, { year := 2004, month := 10, day := 19, hour := 10, minute := 23, second := 54, nano := 0 })), fun r => gives (stampRangeScan timestampLayout (zeroTime, zeroTime) r) ({ year := 1999, month := 1, day := 8, hour := 21, minute := 5, second := 33, nano := 0 }, { year := 2004, month := 10, day := 19, hour := 10, minute := 23, second := 54, nano := 0 })⟩]
  texts := [
    (23, b!"[\"1999-01-08 04:05:06\",\"2004-10-19 10:23:54\")", b!"[\"1999-01-08 04:05:06\",\"2004-10-19 10:23:54\")"),
    (29, b!"[\"1999-01-08 04:05:06\",\"2004-10-19 10:23:54\")", b!"[\"1999-01-08 04:05:06\",\"2004-10-19 10:23:54\")")]

theorem tsrange_ok : tsrangeFile.ok = true := by decide +kernel

/-- /repo/pgsql/tsrangearr_test.go: 4 cases with a valuer and a scanner, 8 texts. -/
def tsrangearrFile : File where
  name := "tsrangearr_test.go"
  col := arrayOf (rangeOf timestamp)
  cases := [
    ⟨13, stored (stampRangeArrValue timestampLayout none), fun r => gives (stampRangeArrScan timestampLayout none r) none⟩,
    ⟨14, stored (stampRangeArrValue timestampLayout (some [])), fun r => gives (stampRangeArrScan timestampLayout none r) (some [])⟩,
    ⟨15, stored (stampRangeArrValue timestampLayout (some [({ year := 1999, month := 1, day := 8, hour := 21, minute := 5, second := 33, nano := 0 }, { year := 2004, month := 10, day := 19, hour := 10, minute := 23, second := 54, nano := 789000000 })])), fun r => gives (stampRangeArrScan timestampLayout none r) (some [({ year := 1999, month := 1, day := 8, hour := 21, minute := 5, second := 33, nano := 0 }, { year := 2004, month := 10, day := 19, hour := 10, minute := 23, second := 54, nano := 789000000 })])⟩,
    ⟨24, stored (stampRangeArrValue timestampLayout (some [({ year := 1999, month := 1, day := 8, hour := 21, minute := 5, second := 33, nano := 0 }, { year := 2004, month := 10, day := 19, hour := 10, minute := 23, second := 54, nano := 789000000 }), ({ year := 2004, month := 10, day := 19, hour := 10, minute := 23, second := 54, nano := 789000000 }, { year := 2019, month := 1, day := 8, hour := 21, minute := 5, second := 33, nano := 0 })])), fun r => gives (stampRangeArrScan timestampLayout none r) (some [({ year := 1999, month := 1, day := 8, hour := 21, minute := 5, second := 33, nano := 0 }, { year := 2004, month := 10, day := 19, hour := 10, minute := 23, second := 54, nano := 789000000 }), ({ year := 2004, month := 10, day := 19, hour := 10, minute := 23, second := 54, nano := 789000000 }, { year := 2019, month := 1, day := 8, hour := 21, minute := 5, second := 33, nano := 0 })])⟩]
  texts := [
    (42, b!"{}", b!"{}"),
    (43, b!"{\"[\\\"1999-01-08 04:05:06\\\",\\\"2004-10-19 10:23:54\\\")\"}", b!"{\"[\\\"1999-01-08 04:05:06\\\",\\\"2004-10-19 10:23:54\\\")\"}"),
    (46, b!"{\"[\\\"1999-01-08 04:05:06\\\",\\\"2004-10-19 10:23:54\\\")\",\"(\\\"1999-01-08 04:05:06\\\",\\\"2004-10-19 10:23:54\\\"]\"}", b!"{\"[\\\"1999-01-08 04:05:06\\\",\\\"2004-10-19 10:23:54\\\")\",\"(\\\"1999-01-08 04:05:06\\\",\\\"2004-10-19 10:23:54\\\"]\"}"),
    (51, b!"{\"(,)\",NULL}", b!"{\"(,)\",NULL}"),
    (57, b!"{}", b!"{}"),
    (58, b!"{\"[\\\"1999-01-08 04:05:06\\\",\\\"2004-10-19 10:23:54\\\")\"}", b!"{\"[\\\"1999-01-08 04:05:06\\\",\\\"2004-10-19 10:23:54\\\")\"}"),
    (61, b!"{\"[\\\"1999-01-08 04:05:06\\\",\\\"2004-10-19 10:23:54\\\")\",\"(\\\"1999-01-08 04:05:06\\\",\\\"2004-10-19 10:23:54\\\"]\"}", b!"{\"[\\\"1999-01-08 04:05:06\\\",\\\"2004-10-19 10:23:54\\\")\",\"(\\\"1999-01-08 04:05:06\\\",\\\"2004-10-19 10:23:54\\\"]\"}"),
    (66, b!"{\"(,)\",NULL}", b!"{\"(,)\",NULL}")]

theorem tsrangearr_ok : tsrangearrFile.ok = true := by decide +kernel

/-- /repo/pgsql/tsvector_test.go: 10 cases with a valuer and a scanner, 8 texts. -/
def tsvectorFile : File where
  name := "tsvector_test.go"
  col := keep
  cases := [
    ⟨14, tsVectorValue none, fun r => gives (tsVectorScan none r) none⟩,
    ⟨15, tsVectorValue (some []), fun r => gives (tsVectorScan none r) (some [])⟩,
    ⟨16, tsVectorValue (some [b!"'cat'", b!"'fat'", b!"'rat'"]), fun r => gives (tsVectorScan none r) (some [b!"'cat'", b!"'fat'", b!"'rat'"])⟩,
    ⟨19, tsVectorValue (some [b!"'cat':2", b!"'fat':7,11", b!"'rat'"]), fun r => gives (tsVectorScan none r) (some [b!"'cat':2", b!"'fat':7,11", b!"'rat'"])⟩,
    ⟨22, tsVectorValue (some [b!"'cat':2", b!"'fat':7,11", b!"'rat':2B,4C"]), fun r => gives (tsVectorScan none r) (some [b!"'cat':2", b!"'fat':7,11", b!"'rat':2B,4C"])⟩,
    ⟨30, tsVectorValue none, fun r => gives (tsVectorScan none r) none⟩,
    ⟨31, tsVectorValue (some []), fun r => gives (tsVectorScan none r) (some [])⟩,
    ⟨32, tsVectorValue (some [b!"'cat'", b!"'fat'", b!"'rat'"]), fun r => gives (tsVectorScan none r) (some [b!"'cat'", b!"'fat'", b!"'rat'"])⟩,
    ⟨35, tsVectorValue (some [b!"'cat':2", b!"'fat':7,11", b!"'rat'"]), fun r => gives (tsVectorScan none r) (some [b!"'cat':2", b!"'fat':7,11", b!"'rat'"])⟩,
    ⟨38, tsVectorValue (some [b!"'cat':2", b!"'fat':7,11", b!"'rat':2B,4C"]), fun r => gives (tsVectorScan none r) (some [b!"'cat':2", b!"'fat':7,11", b!"'rat':2B,4C"])⟩]
  texts := [
    (44, b!"", b!""),
    (47, b!"'cat' 'fat' 'rat'", b!"'cat' 'fat' 'rat'"),
    (50, b!"'cat':2 'fat':7,11 'rat'", b!"'cat':2 'fat':7,11 'rat'"),
    (53, b!"'cat':2 'fat':7,11 'rat':2B,4C", b!"'cat':2 'fat':7,11 'rat':2B,4C"),
    (59, b!"", b!""),
    (62, b!"'cat' 'fat' 'rat'", b!"'cat' 'fat' 'rat'"),
    (65, b!"'cat':2 'fat':7,11 'rat'", b!"'cat':2 'fat':7,11 'rat'"),
    (68, b!"'cat':2 'fat':7,11 'rat':2B,4C", b!"'cat':2 'fat':7,11 'rat':2B,4C")]

theorem tsvector_ok : tsvectorFile.ok = true := by decide +kernel

/-- /repo/pgsql/tsvectorarr_test.go: 8 cases with a valuer and a scanner, 4 texts. -/
def tsvectorarrFile : File where
  name := "tsvectorarr_test.go"
  col := arrayOf keep
  cases := [
    ⟨14, tsVecArrValue none, fun r => gives (tsVecArrScan none r) none⟩,
    ⟨15, tsVecArrValue (some []), fun r => gives (tsVecArrScan none r) (some [])⟩,
    ⟨16, tsVecArrValue (some [(some [b!"'cat'", b!"'fat'"]), (some [b!"'bat'", b!"'rat'"])]), fun r => gives (tsVecArrScan none r) (some [(some [b!"'cat'", b!"'fat'"]), (some [b!"'bat'", b!"'rat'"])])⟩,
    ⟨19, tsVecArrValue (some [(some [b!"'cat'", b!"'fat'"]), (some []), none]), fun r => gives (tsVecArrScan none r) (some [(some [b!"'cat'", b!"'fat'"]), (some []), none])⟩,
    ⟨27, tsVecArrValue none, fun r => gives (tsVecArrScan none r) none⟩,
    ⟨28, tsVecArrValue (some []), fun r => gives (tsVecArrScan none r) (some [])⟩,
    ⟨29, tsVecArrValue (some [(some [b!"'cat'", b!"'fat'"]), (some [b!"'bat'", b!"'rat'"])]), fun r => gives (tsVecArrScan none r) (some [(some [b!"'cat'", b!"'fat'"]), (some [b!"'bat'", b!"'rat'"])])⟩,
    ⟨32, tsVecArrValue (some [(some [b!"'cat'", b!"'fat'"]), (some []), none]), fun r => gives (tsVecArrScan none r) (some [(some [b!"'cat'", b!"'fat'"]), (some []), none])⟩]
  texts := [
    (38, b!"{}", b!"{}"),
    (41, b!"{\"'cat' 'fat'\",\"'rat'\"}", b!"{\"'cat' 'fat'\",'rat'}"),
    (47, b!"{}", b!"{}"),
    (50, b!"{\"'cat' 'fat'\",\"'rat'\"}", b!"{\"'cat' 'fat'\",'rat'}")]

theorem tsvectorarr_ok : tsvectorarrFile.ok = true := by decide +kernel

/-- /repo/pgsql/uuid_test.go: 2 cases with a valuer and a scanner, 4 texts. -/
def uuidFile : File where
  name := "uuid_test.go"
  col := uuid
  cases := [
    ⟨12, .text (formatUUID [137, 76, 154, 139, 186, 253, 72, 215, 167, 5, 240, 98, 91, 82, 121, 61]), fun r => gives (uuidScan [] (List.replicate 16 0) r) [137, 76, 154, 139, 186, 253, 72, 215, 167, 5, 240, 98, 91, 82, 121, 61]⟩,
    ⟨15, .text (formatUUID [37, 162, 252, 243, 237, 9, 78, 149, 150, 23, 139, 212, 14, 38, 108, 161]), fun r => gives (uuidScan [] (List.replicate 16 0) r) [37, 162, 252, 243, 237, 9, 78, 149, 150, 23, 139, 212, 14, 38, 108, 161]⟩]
  texts := [
    (21, b!"894c9a8b-bafd-48d7-a705-f0625b52793d", b!"894c9a8b-bafd-48d7-a705-f0625b52793d"),
    (24, b!"25a2fcf3-ed09-4e95-9617-8bd40e266ca1", b!"25a2fcf3-ed09-4e95-9617-8bd40e266ca1"),
    (30, b!"894c9a8b-bafd-48d7-a705-f0625b52793d", b!"894c9a8b-bafd-48d7-a705-f0625b52793d"),
    (33, b!"25a2fcf3-ed09-4e95-9617-8bd40e266ca1", b!"25a2fcf3-ed09-4e95-9617-8bd40e266ca1")]

theorem uuid_ok : uuidFile.ok = true := by decide +kernel

/-- /repo/pgsql/uuidarr_test.go: 13 cases with a valuer and a scanner, 2 texts. -/
def uuidarrFile : File where
  name := "uuidarr_test.go"
  col := arrayOf uuid
  cases := [
    ⟨15, uuidArrValue none, fun r => gives (uuidArrScan [] none r) none⟩,
    ⟨16, uuidArrValue (some []), fun r => gives (uuidArrScan [] none r) (some [])⟩,
    ⟨17, uuidArrValue (some [[137, 76, 154, 139, 186, 253, 72, 215, 167, 5, 240, 98, 91, 82, 121, 61]]), fun r => gives (uuidArrScan [] none r) (some [[137, 76, 154, 139, 186, 253, 72, 215, 167, 5, 240, 98, 91, 82, 121, 61]])⟩,
    ⟨20, uuidArrValue (some [[137, 76, 154, 139, 186, 253, 72, 215, 167, 5, 240, 98, 91, 82, 121, 61], [37, 162, 252, 243, 237, 9, 78, 149, 150, 23, 139, 212, 14, 38, 108, 161]]), fun r => gives (uuidArrScan [] none r) (some [[137, 76, 154, 139, 186, 253, 72, 215, 167, 5, 240, 98, 91, 82, 121, 61], [37, 162, 252, 243, 237, 9, 78, 149, 150, 23, 139, 212, 14, 38, 108, 161]])⟩,
    ⟨34, uuidArrFromTexts none, fun r => gives (uuidArrToStrings none r) none⟩,
    ⟨35, uuidArrFromTexts (some []), fun r => gives (uuidArrToStrings none r) (some [])⟩,
    ⟨36, uuidArrFromTexts (some [(some b!"894c9a8b-bafd-48d7-a705-f0625b52793d")]), fun r => gives (uuidArrToStrings none r) (some [b!"894c9a8b-bafd-48d7-a705-f0625b52793d"])⟩,
    ⟨39, uuidArrFromTexts (some [(some b!"894c9a8b-bafd-48d7-a705-f0625b52793d"), (some b!"25a2fcf3-ed09-4e95-9617-8bd40e266ca1")]), fun r => gives (uuidArrToStrings none r) (some [b!"894c9a8b-bafd-48d7-a705-f0625b52793d", b!"25a2fcf3-ed09-4e95-9617-8bd40e266ca1"])⟩,
    ⟨53, uuidArrFromTexts none, fun r => gives (uuidArrToTexts none r) none⟩,
    ⟨54, uuidArrFromTexts (some []), fun r => gives (uuidArrToTexts none r) (some [])⟩,
    ⟨55, uuidArrFromTexts (some [(some b!"894c9a8b-bafd-48d7-a705-f0625b52793d")]), fun r => gives (uuidArrToTexts none r) (some [(some b!"894c9a8b-bafd-48d7-a705-f0625b52793d")])⟩,
    ⟨58, uuidArrFromTexts (some [(some b!"894c9a8b-bafd-48d7-a705-f0625b52793d"), (some b!"25a2fcf3-ed09-4e95-9617-8bd40e266ca1")]), fun r => gives (uuidArrToTexts none r) (some [(some b!"894c9a8b-bafd-48d7-a705-f0625b52793d"), (some b!"25a2fcf3-ed09-4e95-9617-8bd40e266ca1")])⟩,
    ⟨66, uuidArrFromTexts (some [(some b!"894c9a8b-bafd-48d7-a705-f0625b52793d"), none, (some b!"25a2fcf3-ed09-4e95-9617-8bd40e266ca1"), none]), fun r => gives (uuidArrToTexts none r) (some [(some b!"894c9a8b-bafd-48d7-a705-f0625b52793d"), none, (some b!"25a2fcf3-ed09-4e95-9617-8bd40e266ca1"), none])⟩]
  texts := [
    (81, b!"{894c9a8b-bafd-48d7-a705-f0625b52793d,25a2fcf3-ed09-4e95-9617-8bd40e266ca1}", b!"{894c9a8b-bafd-48d7-a705-f0625b52793d,25a2fcf3-ed09-4e95-9617-8bd40e266ca1}"),
    (87, b!"{894c9a8b-bafd-48d7-a705-f0625b52793d,25a2fcf3-ed09-4e95-9617-8bd40e266ca1}", b!"{894c9a8b-bafd-48d7-a705-f0625b52793d,25a2fcf3-ed09-4e95-9617-8bd40e266ca1}")]

theorem uuidarr_ok : uuidarrFile.ok = true := by decide +kernel

/-- /repo/pgsql/varbit_test.go: 13 cases with a valuer and a scanner, 8 texts. -/
def varbitFile : File where
  name := "varbit_test.go"
  col := varbit
  cases := [
    ⟨12, .text (varbitFromInt 0), fun r => gives (varbitToInt 0 r) 0⟩,
    ⟨13, .text (varbitFromInt 1), fun r => gives (varbitToInt 0 r) 1⟩,
    ⟨14, .text (varbitFromInt 1024), fun r => gives (varbitToInt 0 r) 1024⟩,
    ⟨21, stored (varbitFromBools none), fun r => gives (varbitToBools none r) none⟩,
    ⟨22, stored (varbitFromBools (some [])), fun r => gives (varbitToBools none r) (some [])⟩,
    ⟨23, stored (varbitFromBools (some [false])), fun r => gives (varbitToBools none r) (some [false])⟩,
    ⟨24, stored (varbitFromBools (some [true])), fun r => gives (varbitToBools none r) (some [true])⟩,
    ⟨25, stored (varbitFromBools (some [true, false, false, true, false])), fun r => gives (varbitToBools none r) (some [true, false, false, true, false])⟩,
    ⟨33, stored (varbitFromUint8s none), fun r => gives (varbitToUint8s none r) none⟩,
    ⟨34, stored (varbitFromUint8s (some [])), fun r => gives (varbitToUint8s none r) (some [])⟩,
    ⟨35, stored (varbitFromUint8s (some [0])), fun r => gives (varbitToUint8s none r) (some [0])⟩,
    ⟨36, stored (varbitFromUint8s (some [1])), fun r => gives (varbitToUint8s none r) (some [1])⟩,
    ⟨37, stored (varbitFromUint8s (some [1, 0, 0, 1, 0])), fun r => gives (varbitToUint8s none r) (some [1, 0, 0, 1, 0])⟩]
  texts := [
    (43, b!"", b!""),
    (44, b!"0", b!"0"),
    (45, b!"1", b!"1"),
    (46, b!"10010", b!"10010"),
    (52, b!"", b!""),
    (53, b!"0", b!"0"),
    (54, b!"1", b!"1"),
    (55, b!"10010", b!"10010")]

theorem varbit_ok : varbitFile.ok = true := by decide +kernel

/-- /repo/pgsql/varbitarr_test.go: 23 cases with a valuer and a scanner, 10 texts. -/
def varbitarrFile : File where
  name := "varbitarr_test.go"
  col := arrayOf varbit
  cases := [
    ⟨12, varbitArrFromBools none, fun r => gives (varbitArrToBools none r) none⟩,
    ⟨13, varbitArrFromBools (some []), fun r => gives (varbitArrToBools none r) (some [])⟩,
    ⟨14, varbitArrFromBools (some [(some [true])]), fun r => gives (varbitArrToBools none r) (some [(some [true])])⟩,
    ⟨17, varbitArrFromBools (some [(some [false])]), fun r => gives (varbitArrToBools none r) (some [(some [false])])⟩,
    ⟨20, varbitArrFromBools (some [(some [false, true]), (some [true, true]), (some [true, false, false])]), fun r => gives (varbitArrToBools none r) (some [(some [false, true]), (some [true, true]), (some [true, false, false])])⟩,
    ⟨23, varbitArrFromBools (some [(some [false, true]), none, (some [])]), fun r => gives (varbitArrToBools none r) (some [(some [false, true]), none, (some [])])⟩,
    ⟨31, varbitArrFromUint8s none, fun r => gives (varbitArrToUint8s none r) none⟩,
    ⟨32, varbitArrFromUint8s (some []), fun r => gives (varbitArrToUint8s none r) (some [])⟩,
    ⟨33, varbitArrFromUint8s (some [(some [1])]), fun r => gives (varbitArrToUint8s none r) (some [(some [1])])⟩,
    ⟨36, varbitArrFromUint8s (some [(some [0])]), fun r => gives (varbitArrToUint8s none r) (some [(some [0])])⟩,
    ⟨39, varbitArrFromUint8s (some [(some [0, 1]), (some [1, 1]), (some [1, 0, 0])]), fun r => gives (varbitArrToUint8s none r) (some [(some [0, 1]), (some [1, 1]), (some [1, 0, 0])])⟩,
    ⟨42, varbitArrFromUint8s (some [(some [0, 1]), none, (some [])]), fun r => gives (varbitArrToUint8s none r) (some [(some [0, 1]), none, (some [])])⟩,
    ⟨50, varbitArrFromStrings none, fun r => gives (varbitArrToStrings none r) none⟩,
    ⟨51, varbitArrFromStrings (some []), fun r => gives (varbitArrToStrings none r) (some [])⟩,
    ⟨52, varbitArrFromStrings (some [b!"1"]), fun r => gives (varbitArrToStrings none r) (some [b!"1"])⟩,
    ⟨55, varbitArrFromStrings (some [b!"0"]), fun r => gives (varbitArrToStrings none r) (some [b!"0"])⟩,
    ⟨58, varbitArrFromStrings (some [b!"101010", b!"01", b!"10", b!"1111100"]), fun r => gives (varbitArrToStrings none r) (some [b!"101010", b!"01", b!"10", b!"1111100"])⟩,
    ⟨61, varbitArrFromStrings (some [b!"1011", b!"", b!"010", b!""]), fun r => gives (varbitArrToStrings none r) (some [b!"1011", b!"", b!"010", b!""])⟩,
    ⟨69, stored (varbitArrFromInts none), fun r => gives (varbitArrToInts none r) none⟩,
    ⟨70, stored (varbitArrFromInts (some [])), fun r => gives (varbitArrToInts none r) (some [])⟩,
    ⟨71, stored (varbitArrFromInts (some [1])), fun r => gives (varbitArrToInts none r) (some [1])⟩,
    ⟨74, stored (varbitArrFromInts (some [0])), fun r => gives (varbitArrToInts none r) (some [0])⟩,
    ⟨77, stored (varbitArrFromInts (some [42, 1, 2, 124])), fun r => gives (varbitArrToInts none r) (some [42, 1, 2, 124])⟩]
  texts := [
    (83, b!"{}", b!"{}"),
    (84, b!"{1}", b!"{1}"),
    (87, b!"{0}", b!"{0}"),
    (90, b!"{101010,01,10,1111100}", b!"{101010,01,10,1111100}"),
    (93, b!"{0,NULL,\"\"}", b!"{0,NULL,\"\"}"),
    (99, b!"{}", b!"{}"),
    (100, b!"{1}", b!"{1}"),
    (103, b!"{0}", b!"{0}"),
    (106, b!"{101010,01,10,1111100}", b!"{101010,01,10,1111100}"),
    (109, b!"{0,NULL,\"\"}", b!"{0,NULL,\"\"}")]

theorem varbitarr_ok : varbitarrFile.ok = true := by decide +kernel

/-- /repo/pgsql/varchar_test.go: 0 cases with a valuer and a scanner, 4 texts. -/
def varcharFile : File where
  name := "varchar_test.go"
  col := keep
  cases := []
  texts := [
    (10, b!"", b!""),
    (11, b!"foo bar", b!"foo bar"),
    (15, b!"", b!""),
    (16, b!"foo bar", b!"foo bar")]

theorem varchar_ok : varcharFile.ok = true := by decide +kernel

/-- /repo/pgsql/varchararr_test.go: 12 cases with a valuer and a scanner, 6 texts. -/
def varchararrFile : File where
  name := "varchararr_test.go"
  col := arrayOf keep
  cases := [
    ⟨14, stored (textFromStrings none), fun r => gives (textToStrings none r) none⟩,
    ⟨15, stored (textFromStrings (some [b!"foo", b!"bar"])), fun r => gives (textToStrings none r) (some [b!"foo", b!"bar"])⟩,
    ⟨18, stored (textFromStrings (some [b!"foo,bar", b!"foo bar"])), fun r => gives (textToStrings none r) (some [b!"foo,bar", b!"foo bar"])⟩,
    ⟨21, stored (textFromStrings (some [b!"foo", b!"", b!"NULL"])), fun r => gives (textToStrings none r) (some [b!"foo", b!"", b!"NULL"])⟩,
    ⟨24, stored (textFromStrings (some [b!"foo\""])), fun r => gives (textToStrings none r) (some [b!"foo\""])⟩,
    ⟨27, stored (textFromStrings (some [b!"foo\\\\\""])), fun r => gives (textToStrings none r) (some [b!"foo\\\\\""])⟩,
    ⟨35, stored (textFromBytes none), fun r => gives (textToBytes none r) none⟩,
    ⟨36, stored (textFromBytes (some [(some b!"foo"), (some b!"bar")])), fun r => gives (textToBytes none r) (some [(some b!"foo"), (some b!"bar")])⟩,
    ⟨39, stored (textFromBytes (some [(some b!"foo,bar"), (some b!"foo bar")])), fun r => gives (textToBytes none r) (some [(some b!"foo,bar"), (some b!"foo bar")])⟩,
    ⟨42, stored (textFromBytes (some [(some b!"foo"), none, (some b!"NULL")])), fun r => gives (textToBytes none r) (some [(some b!"foo"), none, (some b!"NULL")])⟩,
    ⟨45, stored (textFromBytes (some [(some b!"foo\"")])), fun r => gives (textToBytes none r) (some [(some b!"foo\"")])⟩,
    ⟨48, stored (textFromBytes (some [(some b!"foo\\\\\"")])), fun r => gives (textToBytes none r) (some [(some b!"foo\\\\\"")])⟩]
  texts := [
    (54, b!"{}", b!"{}"),
    (55, b!"{foo,bar}", b!"{foo,bar}"),
    (56, b!"{\"foo,bar\",\"foo bar\"}", b!"{\"foo,bar\",\"foo bar\"}"),
    (62, b!"{}", b!"{}"),
    (63, b!"{foo,bar}", b!"{foo,bar}"),
    (64, b!"{\"foo,bar\",\"foo bar\"}", b!"{\"foo,bar\",\"foo bar\"}")]

theorem varchararr_ok : varchararrFile.ok = true := by decide +kernel

/-- /repo/pgsql/xml_test.go: 0 cases with a valuer and a scanner, 2 texts. -/
def xmlFile : File where
  name := "xml_test.go"
  col := keep
  cases := []
  texts := [
    (27, b!"<document><foo>some value</foo></document>", b!"<document><foo>some value</foo></document>"),
    (33, b!"<document><foo>some value</foo></document>", b!"<document><foo>some value</foo></document>")]

theorem xml_ok : xmlFile.ok = true := by decide +kernel

/-- /repo/pgsql/xmlarr_test.go: 4 cases with a valuer and a scanner, 6 texts. -/
def xmlarrFile : File where
  name := "xmlarr_test.go"
  col := arrayOf keep
  cases := [
    ⟨14, stored (jsonFromBytes none), fun r => gives (jsonToBytes none r) none⟩,
    ⟨15, stored (jsonFromBytes (some [])), fun r => gives (jsonToBytes none r) (some [])⟩,
    ⟨16, stored (jsonFromBytes (some [(some b!"<foo>bar</foo>"), (some b!"<bar>hello, world</bar>")])), fun r => gives (jsonToBytes none r) (some [(some b!"<foo>bar</foo>"), (some b!"<bar>hello, world</bar>")])⟩,
    ⟨19, stored (jsonFromBytes (some [(some b!"<foo>bar</foo>"), none])), fun r => gives (jsonToBytes none r) (some [(some b!"<foo>bar</foo>"), none])⟩]
  texts := [
    (25, b!"{}", b!"{}"),
    (28, b!"{<foo>bar</foo>,\"<bar>hello, world</bar>\"}", b!"{<foo>bar</foo>,\"<bar>hello, world</bar>\"}"),
    (31, b!"{<foo>bar</foo>,NULL}", b!"{<foo>bar</foo>,NULL}"),
    (37, b!"{}", b!"{}"),
    (40, b!"{<foo>bar</foo>,\"<bar>hello, world</bar>\"}", b!"{<foo>bar</foo>,\"<bar>hello, world</bar>\"}"),
    (43, b!"{<foo>bar</foo>,NULL}", b!"{<foo>bar</foo>,NULL}")]

theorem xmlarr_ok : xmlarrFile.ok = true := by decide +kernel

end Verif.Conform.Codec
