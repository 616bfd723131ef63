import Verif.Conform.PgServer

/-
Cases of the tests of package pgsql, /repo/pgsql/*_test.go. Written by /verif/tools/pgsqlcases.py.
-/
namespace Verif.Conform.Codec
open Verif Verif.Pgsql Verif.PgServer

/-- /repo/pgsql/macaddr8arr_test.go: 4 cases with a valuer and a scanner, 4 texts. -/
def macaddr8arrFile : File where
  name := "macaddr8arr_test.go"
  col := arrayOf (mac 8)
  cases := [
    ⟨13, stored (macArrValue none), fun r => gives (macArrScan none r) none⟩,
    ⟨14, stored (macArrValue (some [])), fun r => gives (macArrScan none r) (some [])⟩,
    ⟨15, stored (macArrValue (some [(some [8, 0, 43, 1, 2, 3, 4, 5])])), fun r => gives (macArrScan none r) (some [(some [8, 0, 43, 1, 2, 3, 4, 5])])⟩,
    ⟨18, stored (macArrValue (some [(some [8, 0, 43, 1, 2, 3, 4, 5]), (some [2, 0, 94, 16, 0, 0, 0, 1])])), fun r => gives (macArrScan none r) (some [(some [8, 0, 43, 1, 2, 3, 4, 5]), (some [2, 0, 94, 16, 0, 0, 0, 1])])⟩]
  texts := [
    (24, b!"{08:00:2b:01:02:03:04:05}", b!"{08:00:2b:01:02:03:04:05}"),
    (27, b!"{08:00:2b:01:02:03:04:05,02:00:5e:10:00:00:00:01}", b!"{08:00:2b:01:02:03:04:05,02:00:5e:10:00:00:00:01}"),
    (33, b!"{08:00:2b:01:02:03:04:05}", b!"{08:00:2b:01:02:03:04:05}"),
    (36, b!"{08:00:2b:01:02:03:04:05,02:00:5e:10:00:00:00:01}", b!"{08:00:2b:01:02:03:04:05,02:00:5e:10:00:00:00:01}")]

theorem macaddr8arr_ok : macaddr8arrFile.ok = true := by decide +kernel

/-- /repo/pgsql/macaddr_test.go: 2 cases with a valuer and a scanner, 4 texts. -/
def macaddrFile : File where
  name := "macaddr_test.go"
  col := mac 6
  cases := [
    ⟨12, stored (macValue (some [8, 0, 43, 1, 2, 3])), fun r => gives (macScan none r) (some [8, 0, 43, 1, 2, 3])⟩,
    ⟨15, stored (macValue (some [0, 0, 94, 0, 83, 1])), fun r => gives (macScan none r) (some [0, 0, 94, 0, 83, 1])⟩]
  texts := [
    (21, b!"08:00:2b:01:02:03", b!"08:00:2b:01:02:03"),
    (22, b!"00:00:5e:00:53:01", b!"00:00:5e:00:53:01"),
    (26, b!"08:00:2b:01:02:03", b!"08:00:2b:01:02:03"),
    (27, b!"00:00:5e:00:53:01", b!"00:00:5e:00:53:01")]

theorem macaddr_ok : macaddrFile.ok = true := by decide +kernel

/-- /repo/pgsql/macaddrarr_test.go: 4 cases with a valuer and a scanner, 4 texts. -/
def macaddrarrFile : File where
  name := "macaddrarr_test.go"
  col := arrayOf (mac 6)
  cases := [
    ⟨13, stored (macArrValue none), fun r => gives (macArrScan none r) none⟩,
    ⟨14, stored (macArrValue (some [])), fun r => gives (macArrScan none r) (some [])⟩,
    ⟨15, stored (macArrValue (some [(some [8, 0, 43, 1, 2, 3])])), fun r => gives (macArrScan none r) (some [(some [8, 0, 43, 1, 2, 3])])⟩,
    ⟨18, stored (macArrValue (some [(some [8, 0, 43, 1, 2, 3]), (some [0, 0, 94, 0, 83, 1])])), fun r => gives (macArrScan none r) (some [(some [8, 0, 43, 1, 2, 3]), (some [0, 0, 94, 0, 83, 1])])⟩]
  texts := [
    (24, b!"{08:00:2b:01:02:03}", b!"{08:00:2b:01:02:03}"),
    (27, b!"{08:00:2b:01:02:03,00:00:5e:00:53:01}", b!"{08:00:2b:01:02:03,00:00:5e:00:53:01}"),
    (33, b!"{08:00:2b:01:02:03}", b!"{08:00:2b:01:02:03}"),
    (36, b!"{08:00:2b:01:02:03,00:00:5e:00:53:01}", b!"{08:00:2b:01:02:03,00:00:5e:00:53:01}")]

theorem macaddrarr_ok : macaddrarrFile.ok = true := by decide +kernel

/-- /repo/pgsql/money_test.go: 3 cases with a valuer and a scanner, 6 texts. -/
def moneyFile : File where
  name := "money_test.go"
  col := money
  cases := [
    ⟨12, .text (moneyValue 0), fun r => gives (moneyScan 0 r) 0⟩,
    ⟨13, .text (moneyValue 99), fun r => gives (moneyScan 0 r) 99⟩,
    ⟨14, .text (moneyValue 120), fun r => gives (moneyScan 0 r) 120⟩]
  texts := [
    (18, b!"$0.00", b!"$0.00"),
    (19, b!"$0.99", b!"$0.99"),
    (20, b!"$1.20", b!"$1.20"),
    (24, b!"$0.00", b!"$0.00"),
    (25, b!"$0.99", b!"$0.99"),
    (26, b!"$1.20", b!"$1.20")]

theorem money_ok : moneyFile.ok = true := by decide +kernel

/-- /repo/pgsql/moneyarr_test.go: 5 cases with a valuer and a scanner, 6 texts. -/
def moneyarrFile : File where
  name := "moneyarr_test.go"
  col := arrayOf money
  cases := [
    ⟨12, stored (moneyArrValue none), fun r => gives (moneyArrScan none r) none⟩,
    ⟨13, stored (moneyArrValue (some [])), fun r => gives (moneyArrScan none r) (some [])⟩,
    ⟨14, stored (moneyArrValue (some [0])), fun r => gives (moneyArrScan none r) (some [0])⟩,
    ⟨15, stored (moneyArrValue (some [0, 99])), fun r => gives (moneyArrScan none r) (some [0, 99])⟩,
    ⟨16, stored (moneyArrValue (some [120, 0, 99])), fun r => gives (moneyArrScan none r) (some [120, 0, 99])⟩]
  texts := [
    (20, b!"{}", b!"{}"),
    (21, b!"{$0.00}", b!"{$0.00}"),
    (22, b!"{$1.20,$0.99}", b!"{$1.20,$0.99}"),
    (28, b!"{}", b!"{}"),
    (29, b!"{$0.00}", b!"{$0.00}"),
    (30, b!"{$1.20,$0.99}", b!"{$1.20,$0.99}")]

theorem moneyarr_ok : moneyarrFile.ok = true := by decide +kernel

/-- /repo/pgsql/numeric_test.go: 0 cases with a valuer and a scanner, 4 texts. -/
def numericFile : File where
  name := "numeric_test.go"
  col := numeric
  cases := []
  texts := [
    (118, b!"-92233720.36854775808", b!"-92233720.36854775808"),
    (121, b!"922337203.6854775807", b!"922337203.6854775807"),
    (127, b!"-92233720.36854775808", b!"-92233720.36854775808"),
    (130, b!"922337203.6854775807", b!"922337203.6854775807")]

theorem numeric_ok : numericFile.ok = true := by decide +kernel

/-- /repo/pgsql/numericarr_test.go: 12 cases with a valuer and a scanner, 2 texts. -/
def numericarrFile : File where
  name := "numericarr_test.go"
  col := arrayOf numeric
  cases := [
    ⟨12, stored (intArrValue (some [(-9223372036854775808), 9223372036854775807])), fun r => gives (intArrScan (scanner "numericArrayToIntSlice") none r) (some [(-9223372036854775808), 9223372036854775807])⟩,
    ⟨20, stored (intArrValue (some [(-128), 127])), fun r => gives (intArrScan (scanner "numericArrayToInt8Slice") none r) (some [(-128), 127])⟩,
    ⟨28, stored (intArrValue (some [(-32768), 32767])), fun r => gives (intArrScan (scanner "numericArrayToInt16Slice") none r) (some [(-32768), 32767])⟩,
    ⟨36, stored (intArrValue (some [(-2147483648), 2147483647])), fun r => gives (intArrScan (scanner "numericArrayToInt32Slice") none r) (some [(-2147483648), 2147483647])⟩,
    ⟨44, stored (intArrValue (some [(-9223372036854775808), 9223372036854775807])), fun r => gives (intArrScan (scanner "numericArrayToInt64Slice") none r) (some [(-9223372036854775808), 9223372036854775807])⟩,
    ⟨52, stored (intArrValue (some [0, 2147483647])), fun r => gives (intArrScan (scanner "numericArrayToUintSlice") none r) (some [0, 2147483647])⟩,
    ⟨60, stored (intArrValue (some [0, 255])), fun r => gives (intArrScan (scanner "numericArrayToUint8Slice") none r) (some [0, 255])⟩,
    ⟨68, stored (intArrValue (some [0, 65535])), fun r => gives (intArrScan (scanner "numericArrayToUint16Slice") none r) (some [0, 65535])⟩,
    ⟨76, stored (intArrValue (some [0, 4294967295])), fun r => gives (intArrScan (scanner "numericArrayToUint32Slice") none r) (some [0, 4294967295])⟩,
    ⟨84, stored (intArrValue (some [0, 9223372036854775807])), fun r => gives (intArrScan (scanner "numericArrayToUint64Slice") none r) (some [0, 9223372036854775807])⟩,
    ⟨92, stored (numericFromFloat32 (some [(.fin false 0), (.fin false (1 * 2 ^ 1105))])), fun r => gives (numericToFloat32 none r) (some [(.fin false 0), (.fin false (1 * 2 ^ 1105))])⟩,
    ⟨100, stored (numericFromFloat64 (some [(.fin false 0), (.fin false (3602879701896397 * 2 ^ 1082))])), fun r => gives (numericToFloat64 none r) (some [(.fin false 0), (.fin false (3602879701896397 * 2 ^ 1082))])⟩]
  texts := [
    (106, b!"{-9223372036854775808,9223372036854775807}", b!"{-9223372036854775808,9223372036854775807}"),
    (112, b!"{-9223372036854775808,9223372036854775807}", b!"{-9223372036854775808,9223372036854775807}")]

theorem numericarr_ok : numericarrFile.ok = true := by decide +kernel

/-- /repo/pgsql/numrange_test.go: 12 cases with a valuer and a scanner, 2 texts. -/
def numrangeFile : File where
  name := "numrange_test.go"
  col := rangeOf numeric
  cases := [
    ⟨12, .text (rangeValue ((-9223372036854775808), 9223372036854775807)), fun r => gives (rangeScan (scanner "numRangeToIntArray2") (0, 0) r) ((-9223372036854775808), 9223372036854775807)⟩,
    ⟨20, .text (rangeValue ((-128), 127)), fun r => gives (rangeScan (scanner "numRangeToInt8Array2") (0, 0) r) ((-128), 127)⟩,
    ⟨26, .text (rangeValue ((-32768), 32767)), fun r => gives (rangeScan (scanner "numRangeToInt16Array2") (0, 0) r) ((-32768), 32767)⟩,
    ⟨34, .text (rangeValue ((-2147483648), 2147483647)), fun r => gives (rangeScan (scanner "numRangeToInt32Array2") (0, 0) r) ((-2147483648), 2147483647)⟩,
    ⟨42, .text (rangeValue ((-9223372036854775808), 9223372036854775807)), fun r => gives (rangeScan (scanner "numRangeToInt64Array2") (0, 0) r) ((-9223372036854775808), 9223372036854775807)⟩,
    ⟨50, .text (rangeValue (0, 9223372036854775807)), fun r => gives (rangeScan (scanner "numRangeToUintArray2") (0, 0) r) (0, 9223372036854775807)⟩,
    ⟨58, .text (rangeValue (0, 255)), fun r => gives (rangeScan (scanner "numRangeToUint8Array2") (0, 0) r) (0, 255)⟩,
    ⟨66, .text (rangeValue (0, 65535)), fun r => gives (rangeScan (scanner "numRangeToUint16Array2") (0, 0) r) (0, 65535)⟩,
    ⟨74, .text (rangeValue (0, 4294967295)), fun r => gives (rangeScan (scanner "numRangeToUint32Array2") (0, 0) r) (0, 4294967295)⟩,
    ⟨82, .text (rangeValue (0, 9223372036854775807)), fun r => gives (rangeScan (scanner "numRangeToUint64Array2") (0, 0) r) (0, 9223372036854775807)⟩,
    ⟨90, .text (rangeValue ((-9223372036854775808), 922337217429372928)), fun r => gives (rangeScan (scanner "numRangeToFloat32Array2") (0, 0) r) ((-9223372036854775808), 922337217429372928)⟩,
    ⟨98, .text (rangeValue ((-9223372036854775808), 922337203685477632)), fun r => gives (rangeScan (scanner "numRangeToFloat64Array2") (0, 0) r) ((-9223372036854775808), 922337203685477632)⟩]
  texts := [
    (104, b!"[-9223372036854775808,9223372036854775807)", b!"[-9223372036854775808,9223372036854775807)"),
    (110, b!"[-9223372036854775808,9223372036854775807)", b!"[-9223372036854775808,9223372036854775807)")]

theorem numrange_ok : numrangeFile.ok = true := by decide +kernel

/-- /repo/pgsql/numrangearr_test.go: 12 cases with a valuer and a scanner, 2 texts. -/
def numrangearrFile : File where
  name := "numrangearr_test.go"
  col := arrayOf (rangeOf numeric)
  cases := [
    ⟨12, stored (rangeArrValue (some [((-9223372036854775808), 9223372036854775807), (0, 21)])), fun r => gives (rangeArrScan (scanner "numRangeArrayToIntArray2Slice") none r) (some [((-9223372036854775808), 9223372036854775807), (0, 21)])⟩,
    ⟨20, stored (rangeArrValue (some [((-128), 127), (0, 21)])), fun r => gives (rangeArrScan (scanner "numRangeArrayToInt8Array2Slice") none r) (some [((-128), 127), (0, 21)])⟩,
    ⟨28, stored (rangeArrValue (some [((-32768), 32767), (0, 21)])), fun r => gives (rangeArrScan (scanner "numRangeArrayToInt16Array2Slice") none r) (some [((-32768), 32767), (0, 21)])⟩,
    ⟨36, stored (rangeArrValue (some [((-2147483648), 2147483647), (0, 21)])), fun r => gives (rangeArrScan (scanner "numRangeArrayToInt32Array2Slice") none r) (some [((-2147483648), 2147483647), (0, 21)])⟩,
    ⟨44, stored (rangeArrValue (some [((-9223372036854775808), 9223372036854775807), (0, 21)])), fun r => gives (rangeArrScan (scanner "numRangeArrayToInt64Array2Slice") none r) (some [((-9223372036854775808), 9223372036854775807), (0, 21)])⟩,
    ⟨52, stored (rangeArrValue (some [(0, 9223372036854775807), (0, 21)])), fun r => gives (rangeArrScan (scanner "numRangeArrayToUintArray2Slice") none r) (some [(0, 9223372036854775807), (0, 21)])⟩,
    ⟨60, stored (rangeArrValue (some [(0, 255), (0, 21)])), fun r => gives (rangeArrScan (scanner "numRangeArrayToUint8Array2Slice") none r) (some [(0, 255), (0, 21)])⟩,
    ⟨68, stored (rangeArrValue (some [(0, 65535), (0, 21)])), fun r => gives (rangeArrScan (scanner "numRangeArrayToUint16Array2Slice") none r) (some [(0, 65535), (0, 21)])⟩,
    ⟨76, stored (rangeArrValue (some [(0, 4294967295), (0, 21)])), fun r => gives (rangeArrScan (scanner "numRangeArrayToUint32Array2Slice") none r) (some [(0, 4294967295), (0, 21)])⟩,
    ⟨84, stored (rangeArrValue (some [(0, 9223372036854775807), (0, 21)])), fun r => gives (rangeArrScan (scanner "numRangeArrayToUint64Array2Slice") none r) (some [(0, 9223372036854775807), (0, 21)])⟩,
    ⟨92, stored (rangeArrValue (some [((-2147483648), 214748368), (0, 21)])), fun r => gives (rangeArrScan (scanner "numRangeArrayToFloat32Array2Slice") none r) (some [((-2147483648), 214748368), (0, 21)])⟩,
    ⟨100, stored (rangeArrValue (some [((-9223372036854775808), 922337203685477632), (0, 21)])), fun r => gives (rangeArrScan (scanner "numRangeArrayToFloat64Array2Slice") none r) (some [((-9223372036854775808), 922337203685477632), (0, 21)])⟩]
  texts := [
    (106, b!"{\"[-9223372036854775808,9223372036854775807)\",\"[0,21)\"}", b!"{\"[-9223372036854775808,9223372036854775807)\",\"[0,21)\"}"),
    (112, b!"{\"[-9223372036854775808,9223372036854775807)\",\"[0,21)\"}", b!"{\"[-9223372036854775808,9223372036854775807)\",\"[0,21)\"}")]

theorem numrangearr_ok : numrangearrFile.ok = true := by decide +kernel

/-- /repo/pgsql/path_test.go: 4 cases with a valuer and a scanner, 6 texts. -/
def pathFile : File where
  name := "path_test.go"
  col := shape
  cases := [
    ⟨12, stored (pathValue coords none), fun r => gives (pathScan coords none r) none⟩,
    ⟨13, stored (pathValue coords (some [((.fin false 0), (.fin false 0))])), fun r => gives (pathScan coords none r) (some [((.fin false 0), (.fin false 0))])⟩,
    ⟨16, stored (pathValue coords (some [((.fin false 0), (.fin false 0)), ((.fin false (1 * 2 ^ 1074)), (.fin false (1 * 2 ^ 1074))), ((.fin false (1 * 2 ^ 1075)), (.fin false 0))])), fun r => gives (pathScan coords none r) (some [((.fin false 0), (.fin false 0)), ((.fin false (1 * 2 ^ 1074)), (.fin false (1 * 2 ^ 1074))), ((.fin false (1 * 2 ^ 1075)), (.fin false 0))])⟩,
    ⟨19, stored (pathValue coords (some [((.fin false 0), (.fin false (1 * 2 ^ 1073))), ((.fin false (3 * 2 ^ 1073)), (.fin false (1 * 2 ^ 1074))), ((.fin false (5404319552844595 * 2 ^ 1023)), (.fin false (3602879701896397 * 2 ^ 1021)))])), fun r => gives (pathScan coords none r) (some [((.fin false 0), (.fin false (1 * 2 ^ 1073))), ((.fin false (3 * 2 ^ 1073)), (.fin false (1 * 2 ^ 1074))), ((.fin false (5404319552844595 * 2 ^ 1023)), (.fin false (3602879701896397 * 2 ^ 1021)))])⟩]
  texts := [
    (25, b!"((0,0))", b!"((0,0))"),
    (26, b!"((0,0),(1,1))", b!"((0,0),(1,1))"),
    (29, b!"[(0,0.5),(1.5,1),(2.23,0.623)]", b!"[(0,0.5),(1.5,1),(2.23,0.623)]"),
    (35, b!"((0,0))", b!"((0,0))"),
    (36, b!"((0,0),(1,1))", b!"((0,0),(1,1))"),
    (39, b!"[(0,0.5),(1.5,1),(2.23,0.623)]", b!"[(0,0.5),(1.5,1),(2.23,0.623)]")]

theorem path_ok : pathFile.ok = true := by decide +kernel

/-- /repo/pgsql/patharr_test.go: 5 cases with a valuer and a scanner, 8 texts. -/
def patharrFile : File where
  name := "patharr_test.go"
  col := arrayOf shape
  cases := [
    ⟨12, stored (pathArrValue coords none), fun r => gives (pathArrScan coords none r) none⟩,
    ⟨13, stored (pathArrValue coords (some [])), fun r => gives (pathArrScan coords none r) (some [])⟩,
    ⟨14, stored (pathArrValue coords (some [(some [((.fin false 0), (.fin false 0))])])), fun r => gives (pathArrScan coords none r) (some [(some [((.fin false 0), (.fin false 0))])])⟩,
    ⟨17, stored (pathArrValue coords (some [(some [((.fin false (1 * 2 ^ 1074)), (.fin false (1 * 2 ^ 1074))), ((.fin false (1 * 2 ^ 1075)), (.fin false (1 * 2 ^ 1075))), ((.fin false (3 * 2 ^ 1074)), (.fin false (3 * 2 ^ 1074)))]), (some [((.fin false (3 * 2 ^ 1073)), (.fin false (3 * 2 ^ 1073))), ((.fin false (5 * 2 ^ 1073)), (.fin false (5 * 2 ^ 1073))), ((.fin false (7 * 2 ^ 1073)), (.fin false (7 * 2 ^ 1073)))])])), fun r => gives (pathArrScan coords none r) (some [(some [((.fin false (1 * 2 ^ 1074)), (.fin false (1 * 2 ^ 1074))), ((.fin false (1 * 2 ^ 1075)), (.fin false (1 * 2 ^ 1075))), ((.fin false (3 * 2 ^ 1074)), (.fin false (3 * 2 ^ 1074)))]), (some [((.fin false (3 * 2 ^ 1073)), (.fin false (3 * 2 ^ 1073))), ((.fin false (5 * 2 ^ 1073)), (.fin false (5 * 2 ^ 1073))), ((.fin false (7 * 2 ^ 1073)), (.fin false (7 * 2 ^ 1073)))])])⟩,
    ⟨24, stored (pathArrValue coords (some [(some [((.fin false (1 * 2 ^ 1074)), (.fin false (1 * 2 ^ 1074))), ((.fin false (3 * 2 ^ 1074)), (.fin false (3 * 2 ^ 1074)))]), none, (some [((.fin false (5 * 2 ^ 1073)), (.fin false (5 * 2 ^ 1073))), ((.fin false (7 * 2 ^ 1073)), (.fin false (7 * 2 ^ 1073)))]), none])), fun r => gives (pathArrScan coords none r) (some [(some [((.fin false (1 * 2 ^ 1074)), (.fin false (1 * 2 ^ 1074))), ((.fin false (3 * 2 ^ 1074)), (.fin false (3 * 2 ^ 1074)))]), none, (some [((.fin false (5 * 2 ^ 1073)), (.fin false (5 * 2 ^ 1073))), ((.fin false (7 * 2 ^ 1073)), (.fin false (7 * 2 ^ 1073)))]), none])⟩]
  texts := [
    (38, b!"{}", b!"{}"),
    (39, b!"{\"((0,0))\"}", b!"{\"((0,0))\"}"),
    (42, b!"{\"((1,1),(2,2),(3,3))\",\"[(1.5,1.5),(2.5,2.5),(3.5,3.5)]\"}", b!"{\"((1,1),(2,2),(3,3))\",\"[(1.5,1.5),(2.5,2.5),(3.5,3.5)]\"}"),
    (45, b!"{\"((1,1),(3,3))\",NULL,\"[(2.5,2.5),(3.5,3.5)]\"}", b!"{\"((1,1),(3,3))\",NULL,\"[(2.5,2.5),(3.5,3.5)]\"}"),
    (51, b!"{}", b!"{}"),
    (52, b!"{\"[(0,0)]\"}", b!"{\"[(0,0)]\"}"),
    (55, b!"{\"[(1,1),(2,2),(3,3)]\",\"((1.5,1.5),(2.5,2.5),(3.5,3.5))\"}", b!"{\"[(1,1),(2,2),(3,3)]\",\"((1.5,1.5),(2.5,2.5),(3.5,3.5))\"}"),
    (58, b!"{\"[(1,1),(3,3)]\",NULL,\"((2.5,2.5),(3.5,3.5))\"}", b!"{\"[(1,1),(3,3)]\",NULL,\"((2.5,2.5),(3.5,3.5))\"}")]

theorem patharr_ok : patharrFile.ok = true := by decide +kernel

/-- /repo/pgsql/point_test.go: 3 cases with a valuer and a scanner, 6 texts. -/
def pointFile : File where
  name := "point_test.go"
  col := shape
  cases := [
    ⟨12, .text (pointValue coords ((.fin false 0), (.fin false 0))), fun r => gives (pointScan coords (.fin false 0, .fin false 0) r) ((.fin false 0), (.fin false 0))⟩,
    ⟨13, .text (pointValue coords ((.fin false (1 * 2 ^ 1074)), (.fin false (1 * 2 ^ 1074)))), fun r => gives (pointScan coords (.fin false 0, .fin false 0) r) ((.fin false (1 * 2 ^ 1074)), (.fin false (1 * 2 ^ 1074)))⟩,
    ⟨14, .text (pointValue coords ((.fin false (1 * 2 ^ 1073)), (.fin false (3 * 2 ^ 1073)))), fun r => gives (pointScan coords (.fin false 0, .fin false 0) r) ((.fin false (1 * 2 ^ 1073)), (.fin false (3 * 2 ^ 1073)))⟩]
  texts := [
    (18, b!"(0,0)", b!"(0,0)"),
    (19, b!"(1,1)", b!"(1,1)"),
    (20, b!"(0.5,1.5)", b!"(0.5,1.5)"),
    (24, b!"(0,0)", b!"(0,0)"),
    (25, b!"(1,1)", b!"(1,1)"),
    (26, b!"(0.5,1.5)", b!"(0.5,1.5)")]

theorem point_ok : pointFile.ok = true := by decide +kernel

/-- /repo/pgsql/pointarr_test.go: 4 cases with a valuer and a scanner, 8 texts. -/
def pointarrFile : File where
  name := "pointarr_test.go"
  col := arrayOf shape
  cases := [
    ⟨12, stored (pointArrValue coords none), fun r => gives (pointArrScan coords none r) none⟩,
    ⟨13, stored (pointArrValue coords (some [])), fun r => gives (pointArrScan coords none r) (some [])⟩,
    ⟨14, stored (pointArrValue coords (some [((.fin false (1 * 2 ^ 1074)), (.fin false (1 * 2 ^ 1075)))])), fun r => gives (pointArrScan coords none r) (some [((.fin false (1 * 2 ^ 1074)), (.fin false (1 * 2 ^ 1075)))])⟩,
    ⟨17, stored (pointArrValue coords (some [((.fin false 0), (.fin false (1 * 2 ^ 1073))), ((.fin false (1 * 2 ^ 1074)), (.fin false (2476979795053773 * 2 ^ 1024))), ((.fin false (11 * 2 ^ 1073)), (.fin false (5 * 2 ^ 1074)))])), fun r => gives (pointArrScan coords none r) (some [((.fin false 0), (.fin false (1 * 2 ^ 1073))), ((.fin false (1 * 2 ^ 1074)), (.fin false (2476979795053773 * 2 ^ 1024))), ((.fin false (11 * 2 ^ 1073)), (.fin false (5 * 2 ^ 1074)))])⟩]
  texts := [
    (23, b!"{}", b!"{}"),
    (24, b!"{\"(0,0)\"}", b!"{\"(0,0)\"}"),
    (25, b!"{\"(0,0)\",\"(1,1)\"}", b!"{\"(0,0)\",\"(1,1)\"}"),
    (28, b!"{\"(0,0.5)\",\"(1,2.23)\",\"(5.5,5)\"}", b!"{\"(0,0.5)\",\"(1,2.23)\",\"(5.5,5)\"}"),
    (34, b!"{}", b!"{}"),
    (35, b!"{\"(0,0)\"}", b!"{\"(0,0)\"}"),
    (36, b!"{\"(0,0)\",\"(1,1)\"}", b!"{\"(0,0)\",\"(1,1)\"}"),
    (39, b!"{\"(0,0.5)\",\"(1,2.23)\",\"(5.5,5)\"}", b!"{\"(0,0.5)\",\"(1,2.23)\",\"(5.5,5)\"}")]

theorem pointarr_ok : pointarrFile.ok = true := by decide +kernel

/-- /repo/pgsql/polygon_test.go: 4 cases with a valuer and a scanner, 6 texts. -/
def polygonFile : File where
  name := "polygon_test.go"
  col := shape
  cases := [
    ⟨12, stored (polygonValue coords none), fun r => gives (polygonScan coords none r) none⟩,
    ⟨13, stored (polygonValue coords (some [((.fin false 0), (.fin false 0))])), fun r => gives (polygonScan coords none r) (some [((.fin false 0), (.fin false 0))])⟩,
    ⟨16, stored (polygonValue coords (some [((.fin false 0), (.fin false 0)), ((.fin false (1 * 2 ^ 1074)), (.fin false (1 * 2 ^ 1074))), ((.fin false (1 * 2 ^ 1075)), (.fin false 0))])), fun r => gives (polygonScan coords none r) (some [((.fin false 0), (.fin false 0)), ((.fin false (1 * 2 ^ 1074)), (.fin false (1 * 2 ^ 1074))), ((.fin false (1 * 2 ^ 1075)), (.fin false 0))])⟩,
    ⟨19, stored (polygonValue coords (some [((.fin false 0), (.fin false (1 * 2 ^ 1073))), ((.fin false (3 * 2 ^ 1073)), (.fin false (1 * 2 ^ 1074))), ((.fin false (5404319552844595 * 2 ^ 1023)), (.fin false (3602879701896397 * 2 ^ 1021)))])), fun r => gives (polygonScan coords none r) (some [((.fin false 0), (.fin false (1 * 2 ^ 1073))), ((.fin false (3 * 2 ^ 1073)), (.fin false (1 * 2 ^ 1074))), ((.fin false (5404319552844595 * 2 ^ 1023)), (.fin false (3602879701896397 * 2 ^ 1021)))])⟩]
  texts := [
    (25, b!"((0,0))", b!"((0,0))"),
    (26, b!"((0,0),(1,1))", b!"((0,0),(1,1))"),
    (29, b!"((0,0.5),(1.5,1),(2.23,0.623))", b!"((0,0.5),(1.5,1),(2.23,0.623))"),
    (35, b!"((0,0))", b!"((0,0))"),
    (36, b!"((0,0),(1,1))", b!"((0,0),(1,1))"),
    (39, b!"((0,0.5),(1.5,1),(2.23,0.623))", b!"((0,0.5),(1.5,1),(2.23,0.623))")]

theorem polygon_ok : polygonFile.ok = true := by decide +kernel

/-- /repo/pgsql/polygonarr_test.go: 5 cases with a valuer and a scanner, 8 texts. -/
def polygonarrFile : File where
  name := "polygonarr_test.go"
  col := arrayOf shape
  cases := [
    ⟨12, stored (polygonArrValue coords none), fun r => gives (polygonArrScan coords none r) none⟩,
    ⟨13, stored (polygonArrValue coords (some [])), fun r => gives (polygonArrScan coords none r) (some [])⟩,
    ⟨14, stored (polygonArrValue coords (some [(some [((.fin false 0), (.fin false 0))])])), fun r => gives (polygonArrScan coords none r) (some [(some [((.fin false 0), (.fin false 0))])])⟩,
    ⟨17, stored (polygonArrValue coords (some [(some [((.fin false (1 * 2 ^ 1074)), (.fin false (1 * 2 ^ 1074))), ((.fin false (1 * 2 ^ 1075)), (.fin false (1 * 2 ^ 1075))), ((.fin false (3 * 2 ^ 1074)), (.fin false (3 * 2 ^ 1074)))]), (some [((.fin false (3 * 2 ^ 1073)), (.fin false (3 * 2 ^ 1073))), ((.fin false (5 * 2 ^ 1073)), (.fin false (5 * 2 ^ 1073))), ((.fin false (7 * 2 ^ 1073)), (.fin false (7 * 2 ^ 1073)))])])), fun r => gives (polygonArrScan coords none r) (some [(some [((.fin false (1 * 2 ^ 1074)), (.fin false (1 * 2 ^ 1074))), ((.fin false (1 * 2 ^ 1075)), (.fin false (1 * 2 ^ 1075))), ((.fin false (3 * 2 ^ 1074)), (.fin false (3 * 2 ^ 1074)))]), (some [((.fin false (3 * 2 ^ 1073)), (.fin false (3 * 2 ^ 1073))), ((.fin false (5 * 2 ^ 1073)), (.fin false (5 * 2 ^ 1073))), ((.fin false (7 * 2 ^ 1073)), (.fin false (7 * 2 ^ 1073)))])])⟩,
    ⟨24, stored (polygonArrValue coords (some [(some [((.fin false (1 * 2 ^ 1074)), (.fin false (1 * 2 ^ 1074))), ((.fin false (3 * 2 ^ 1074)), (.fin false (3 * 2 ^ 1074)))]), none, (some [((.fin false (5 * 2 ^ 1073)), (.fin false (5 * 2 ^ 1073))), ((.fin false (7 * 2 ^ 1073)), (.fin false (7 * 2 ^ 1073)))]), none])), fun r => gives (polygonArrScan coords none r) (some [(some [((.fin false (1 * 2 ^ 1074)), (.fin false (1 * 2 ^ 1074))), ((.fin false (3 * 2 ^ 1074)), (.fin false (3 * 2 ^ 1074)))]), none, (some [((.fin false (5 * 2 ^ 1073)), (.fin false (5 * 2 ^ 1073))), ((.fin false (7 * 2 ^ 1073)), (.fin false (7 * 2 ^ 1073)))]), none])⟩]
  texts := [
    (38, b!"{}", b!"{}"),
    (39, b!"{\"((0,0))\"}", b!"{\"((0,0))\"}"),
    (42, b!"{\"((1,1),(2,2),(3,3))\",\"((1.5,1.5),(2.5,2.5),(3.5,3.5))\"}", b!"{\"((1,1),(2,2),(3,3))\",\"((1.5,1.5),(2.5,2.5),(3.5,3.5))\"}"),
    (45, b!"{\"((1,1),(3,3))\",NULL,\"((2.5,2.5),(3.5,3.5))\"}", b!"{\"((1,1),(3,3))\",NULL,\"((2.5,2.5),(3.5,3.5))\"}"),
    (51, b!"{}", b!"{}"),
    (52, b!"{\"((0,0))\"}", b!"{\"((0,0))\"}"),
    (55, b!"{\"((1,1),(2,2),(3,3))\",\"((1.5,1.5),(2.5,2.5),(3.5,3.5))\"}", b!"{\"((1,1),(2,2),(3,3))\",\"((1.5,1.5),(2.5,2.5),(3.5,3.5))\"}"),
    (58, b!"{\"((1,1),(3,3))\",NULL,\"((2.5,2.5),(3.5,3.5))\"}", b!"{\"((1,1),(3,3))\",NULL,\"((2.5,2.5),(3.5,3.5))\"}")]

theorem polygonarr_ok : polygonarrFile.ok = true := by decide +kernel

/-- /repo/pgsql/text_test.go: 0 cases with a valuer and a scanner, 2 texts. -/
def textFile : File where
  name := "text_test.go"
  col := keep
  cases := []
  texts := [
    (10, b!"foo bar", b!"foo bar"),
    (14, b!"foo bar", b!"foo bar")]

theorem text_ok : textFile.ok = true := by decide +kernel

/-- /repo/pgsql/textarr_test.go: 12 cases with a valuer and a scanner, 6 texts. -/
def textarrFile : File where
  name := "textarr_test.go"
  col := arrayOf keep
  cases := [
    ⟨14, stored (textFromStrings none), fun r => gives (textToStrings none r) none⟩,
    ⟨15, stored (textFromStrings (some [b!"foo", b!"bar"])), fun r => gives (textToStrings none r) (some [b!"foo", b!"bar"])⟩,
    ⟨18, stored (textFromStrings (some [b!"foo,bar", b!"foo bar"])), fun r => gives (textToStrings none r) (some [b!"foo,bar", b!"foo bar"])⟩,
    ⟨21, stored (textFromStrings (some [b!"foo", b!"", b!"NULL"])), fun r => gives (textToStrings none r) (some [b!"foo", b!"", b!"NULL"])⟩,
    ⟨24, stored (textFromStrings (some [b!"foo\""])), fun r => gives (textToStrings none r) (some [b!"foo\""])⟩,
    ⟨27, stored (textFromStrings (some [b!"foo\\\\\""])), fun r => gives (textToStrings none r) (some [b!"foo\\\\\""])⟩,
    ⟨35, stored (textFromBytes none), fun r => gives (textToBytes none r) none⟩,
    ⟨36, stored (textFromBytes (some [(some b!"foo"), (some b!"bar")])), fun r => gives (textToBytes none r) (some [(some b!"foo"), (some b!"bar")])⟩,
    ⟨39, stored (textFromBytes (some [(some b!"foo,bar"), (some b!"foo bar")])), fun r => gives (textToBytes none r) (some [(some b!"foo,bar"), (some b!"foo bar")])⟩,
    ⟨42, stored (textFromBytes (some [(some b!"foo"), none, (some b!"NULL")])), fun r => gives (textToBytes none r) (some [(some b!"foo"), none, (some b!"NULL")])⟩,
    ⟨45, stored (textFromBytes (some [(some b!"foo\"")])), fun r => gives (textToBytes none r) (some [(some b!"foo\"")])⟩,
    ⟨48, stored (textFromBytes (some [(some b!"foo\\\\\"")])), fun r => gives (textToBytes none r) (some [(some b!"foo\\\\\"")])⟩]
  texts := [
    (54, b!"{}", b!"{}"),
    (55, b!"{foo,bar}", b!"{foo,bar}"),
    (56, b!"{\"foo,bar\",\"foo bar\"}", b!"{\"foo,bar\",\"foo bar\"}"),
    (62, b!"{}", b!"{}"),
    (63, b!"{foo,bar}", b!"{foo,bar}"),
    (64, b!"{\"foo,bar\",\"foo bar\"}", b!"{\"foo,bar\",\"foo bar\"}")]

theorem textarr_ok : textarrFile.ok = true := by decide +kernel

/-- /repo/pgsql/time_test.go: 4 cases with a valuer and a scanner, 0 texts. -/
def timeFile : File where
  name := "time_test.go"
  col := time
  cases := [
    ⟨20, .text b!"21:05:33", fun r => decide (timeToString timeLayout [] (asClock r) = b!"21:05:33")⟩,
    ⟨23, .text b!"04:05:06.789", fun r => decide (timeToString timeLayout [] (asClock r) = b!"04:05:06.789")⟩,
    ⟨30, .text b!"21:05:33", fun r => decide (timeToString timeLayout [] (asClock r) = b!"21:05:33")⟩,
    ⟨33, .text b!"04:05:06.789", fun r => decide (timeToString timeLayout [] (asClock r) = b!"04:05:06.789")⟩]
  texts := []

theorem time_ok : timeFile.ok = true := by decide +kernel

/-- /repo/pgsql/timearr_test.go: 4 cases with a valuer and a scanner, 6 texts. -/
def timearrFile : File where
  name := "timearr_test.go"
  col := arrayOf time
  cases := [
    ⟨13, stored (timeArrValue timeLayout none), fun r => gives (timeArrScan timeLayout none r) none⟩,
    ⟨14, stored (timeArrValue timeLayout (some [])), fun r => gives (timeArrScan timeLayout none r) (some [])⟩,
    ⟨15, stored (timeArrValue timeLayout (some [{ year := 0, month := 1, day := 1, hour := 4, minute := 5, second := 6, nano := 789000000 }])), fun r => gives (timeArrScan timeLayout none r) (some [{ year := 0, month := 1, day := 1, hour := 4, minute := 5, second := 6, nano := 789000000 }])⟩,
    ⟨18, stored (timeArrValue timeLayout (some [{ year := 0, month := 1, day := 1, hour := 21, minute := 5, second := 33, nano := 0 }, { year := 0, month := 1, day := 1, hour := 4, minute := 5, second := 6, nano := 789000000 }])), fun r => gives (timeArrScan timeLayout none r) (some [{ year := 0, month := 1, day := 1, hour := 21, minute := 5, second := 33, nano := 0 }, { year := 0, month := 1, day := 1, hour := 4, minute := 5, second := 6, nano := 789000000 }])⟩]
  texts := [
    (24, b!"{}", b!"{}"),
    (25, b!"{04:05:06.789}", b!"{04:05:06.789}"),
    (28, b!"{21:05:33,04:05:06.789}", b!"{21:05:33,04:05:06.789}"),
    (34, b!"{}", b!"{}"),
    (35, b!"{04:05:06.789}", b!"{04:05:06.789}"),
    (38, b!"{21:05:33,04:05:06.789}", b!"{21:05:33,04:05:06.789}")]

theorem timearr_ok : timearrFile.ok = true := by decide +kernel

/-- /repo/pgsql/timestamparr_test.go: 4 cases with a valuer and a scanner, 6 texts. -/
def timestamparrFile : File where
  name := "timestamparr_test.go"
  col := arrayOf timestamp
  cases := [
    ⟨13, stored (stampArrValue timestampLayout none), fun r => gives (stampArrScan timestampLayout none r) none⟩,
    ⟨14, stored (stampArrValue timestampLayout (some [])), fun r => gives (stampArrScan timestampLayout none r) (some [])⟩,
    ⟨15, stored (stampArrValue timestampLayout (some [{ year := 1999, month := 1, day := 8, hour := 4, minute := 5, second := 6, nano := 0 }])), fun r => gives (stampArrScan timestampLayout none r) (some [{ year := 1999, month := 1, day := 8, hour := 4, minute := 5, second := 6, nano := 0 }])⟩,
    ⟨18, stored (stampArrValue timestampLayout (some [{ year := 1999, month := 1, day := 8, hour := 4, minute := 5, second := 6, nano := 987000000 }, { year := 2004, month := 10, day := 19, hour := 10, minute := 23, second := 54, nano := 0 }])), fun r => gives (stampArrScan timestampLayout none r) (some [{ year := 1999, month := 1, day := 8, hour := 4, minute := 5, second := 6, nano := 987000000 }, { year := 2004, month := 10, day := 19, hour := 10, minute := 23, second := 54, nano := 0 }])⟩]
  texts := [
    (24, b!"{}", b!"{}"),
    (25, b!"{\"1999-01-08 04:05:06\"}", b!"{\"1999-01-08 04:05:06\"}"),
    (28, b!"{\"1999-01-08 04:05:06.987\",\"2004-10-19 10:23:54\"}", b!"{\"1999-01-08 04:05:06.987\",\"2004-10-19 10:23:54\"}"),
    (34, b!"{}", b!"{}"),
    (35, b!"{\"1999-01-08 04:05:06\"}", b!"{\"1999-01-08 04:05:06\"}"),
    (38, b!"{\"1999-01-08 04:05:06.987\",\"2004-10-19 10:23:54\"}", b!"{\"1999-01-08 04:05:06.987\",\"2004-10-19 10:23:54\"}")]

theorem timestamparr_ok : timestamparrFile.ok = true := by decide +kernel

end Verif.Conform.Codec
