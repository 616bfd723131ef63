import Verif.Conform.PgServer

/-
Cases of the tests of package pgsql, /repo/pgsql/*_test.go. Written by /verif/tools/pgsqlcases.py.
-/
namespace Verif.Conform.Codec
open Verif Verif.Pgsql Verif.PgServer

/-- /repo/pgsql/bit_test.go: 0 cases with a valuer and a scanner, 4 texts. -/
def bitFile : File where
  name := "bit_test.go"
  col := bit1
  cases := []
  texts := [
    (26, b!"0", b!"0"),
    (27, b!"1", b!"1"),
    (31, b!"0", b!"0"),
    (32, b!"1", b!"1")]

theorem bit_ok : bitFile.ok = true := by decide +kernel

/-- /repo/pgsql/bitarr_test.go: 15 cases with a valuer and a scanner, 8 texts. -/
def bitarrFile : File where
  name := "bitarr_test.go"
  col := arrayOf bit1
  cases := [
    ⟨12, bitFromBools none, fun r => gives (bitToBools none r) none⟩,
    ⟨13, bitFromBools (some []), fun r => gives (bitToBools none r) (some [])⟩,
    ⟨14, bitFromBools (some [true]), fun r => gives (bitToBools none r) (some [true])⟩,
    ⟨15, bitFromBools (some [false]), fun r => gives (bitToBools none r) (some [false])⟩,
    ⟨16, bitFromBools (some [false, false, false, true, true, false, true, true]), fun r => gives (bitToBools none r) (some [false, false, false, true, true, false, true, true])⟩,
    ⟨24, bitFromUints none, fun r => gives (bitToUints none r) none⟩,
    ⟨25, bitFromUints (some []), fun r => gives (bitToUints none r) (some [])⟩,
    ⟨26, bitFromUints (some [1]), fun r => gives (bitToUints none r) (some [1])⟩,
    ⟨27, bitFromUints (some [0]), fun r => gives (bitToUints none r) (some [0])⟩,
    ⟨28, bitFromUints (some [0, 0, 0, 1, 1, 0, 1, 1]), fun r => gives (bitToUints none r) (some [0, 0, 0, 1, 1, 0, 1, 1])⟩,
    ⟨36, bitFromUints none, fun r => gives (bitToUints none r) none⟩,
    ⟨37, bitFromUints (some []), fun r => gives (bitToUints none r) (some [])⟩,
    ⟨38, bitFromUints (some [1]), fun r => gives (bitToUints none r) (some [1])⟩,
    ⟨39, bitFromUints (some [0]), fun r => gives (bitToUints none r) (some [0])⟩,
    ⟨40, bitFromUints (some [0, 0, 0, 1, 1, 0, 1, 1]), fun r => gives (bitToUints none r) (some [0, 0, 0, 1, 1, 0, 1, 1])⟩]
  texts := [
    (46, b!"{}", b!"{}"),
    (47, b!"{1,0}", b!"{1,0}"),
    (48, b!"{0,1}", b!"{0,1}"),
    (49, b!"{0,1,1,1,0,1,0,0}", b!"{0,1,1,1,0,1,0,0}"),
    (56, b!"{}", b!"{}"),
    (57, b!"{1,0}", b!"{1,0}"),
    (58, b!"{0,1}", b!"{0,1}"),
    (59, b!"{0,1,1,1,0,1,0,0}", b!"{0,1,1,1,0,1,0,0}")]

theorem bitarr_ok : bitarrFile.ok = true := by decide +kernel

/-- /repo/pgsql/boolarr_test.go: 5 cases with a valuer and a scanner, 6 texts. -/
def boolarrFile : File where
  name := "boolarr_test.go"
  col := arrayOf boolean
  cases := [
    ⟨12, boolFromBools none, fun r => gives (boolToBools none r) none⟩,
    ⟨13, boolFromBools (some []), fun r => gives (boolToBools none r) (some [])⟩,
    ⟨14, boolFromBools (some [true]), fun r => gives (boolToBools none r) (some [true])⟩,
    ⟨15, boolFromBools (some [false]), fun r => gives (boolToBools none r) (some [false])⟩,
    ⟨16, boolFromBools (some [false, false, false, true, true, false, true, true]), fun r => gives (boolToBools none r) (some [false, false, false, true, true, false, true, true])⟩]
  texts := [
    (22, b!"{}", b!"{}"),
    (23, b!"{true,false}", b!"{t,f}"),
    (26, b!"{t,f,f,f,t,t}", b!"{t,f,f,f,t,t}"),
    (32, b!"{}", b!"{}"),
    (33, b!"{true,false}", b!"{t,f}"),
    (36, b!"{t,f,f,f,t,t}", b!"{t,f,f,f,t,t}")]

theorem boolarr_ok : boolarrFile.ok = true := by decide +kernel

/-- /repo/pgsql/box_test.go: 4 cases with a valuer and a scanner, 8 texts. -/
def boxFile : File where
  name := "box_test.go"
  col := box
  cases := [
    ⟨12, .text (boxValue coords (((.fin false 0), (.fin false 0)), ((.fin false 0), (.fin false 0)))), fun r => gives (boxScan coords ((.fin false 0, .fin false 0), (.fin false 0, .fin false 0)) r) (((.fin false 0), (.fin false 0)), ((.fin false 0), (.fin false 0)))⟩,
    ⟨15, .text (boxValue coords (((.fin false (1 * 2 ^ 1074)), (.fin false (1 * 2 ^ 1074))), ((.fin false 0), (.fin false 0)))), fun r => gives (boxScan coords ((.fin false 0, .fin false 0), (.fin false 0, .fin false 0)) r) (((.fin false (1 * 2 ^ 1074)), (.fin false (1 * 2 ^ 1074))), ((.fin false 0), (.fin false 0)))⟩,
    ⟨18, .text (boxValue coords (((.fin false 0), (.fin false 0)), ((.fin false (1 * 2 ^ 1074)), (.fin false (1 * 2 ^ 1074))))), fun r => gives (boxScan coords ((.fin false 0, .fin false 0), (.fin false 0, .fin false 0)) r) (((.fin false (1 * 2 ^ 1074)), (.fin false (1 * 2 ^ 1074))), ((.fin false 0), (.fin false 0)))⟩,
    ⟨21, .text (boxValue coords (((.fin false (5089405348900713 * 2 ^ 1024)), (.fin false (3572345296422825 * 2 ^ 1022))), ((.fin false (3602879701896397 * 2 ^ 1024)), (.fin false (6342565722213759 * 2 ^ 1024))))), fun r => gives (boxScan coords ((.fin false 0, .fin false 0), (.fin false 0, .fin false 0)) r) (((.fin false (5089405348900713 * 2 ^ 1024)), (.fin false (6342565722213759 * 2 ^ 1024))), ((.fin false (3602879701896397 * 2 ^ 1024)), (.fin false (3572345296422825 * 2 ^ 1022))))⟩]
  texts := [
    (27, b!"(0,0),(0,0)", b!"(0,0),(0,0)"),
    (28, b!"(1,1),(0,0)", b!"(1,1),(0,0)"),
    (29, b!"(0,0),(1,1)", b!"(1,1),(0,0)"),
    (30, b!"(4.5203,0.79322),(3.2,5.63333)", b!"(4.5203,5.63333),(3.2,0.79322)"),
    (36, b!"(0,0),(0,0)", b!"(0,0),(0,0)"),
    (37, b!"(1,1),(0,0)", b!"(1,1),(0,0)"),
    (38, b!"(0,0),(1,1)", b!"(1,1),(0,0)"),
    (39, b!"(4.5203,0.79322),(3.2,5.63333)", b!"(4.5203,5.63333),(3.2,0.79322)")]

theorem box_ok : boxFile.ok = true := by decide +kernel

/-- /repo/pgsql/boxarr_test.go: 5 cases with a valuer and a scanner, 8 texts. -/
def boxarrFile : File where
  name := "boxarr_test.go"
  col := boxarr
  cases := [
    ⟨12, stored (boxArrValue coords none), fun r => gives (boxArrScan coords none r) none⟩,
    ⟨15, stored (boxArrValue coords (some [])), fun r => gives (boxArrScan coords none r) (some [])⟩,
    ⟨18, stored (boxArrValue coords (some [(((.fin false (1 * 2 ^ 1074)), (.fin false (1 * 2 ^ 1074))), ((.fin false 0), (.fin false 0)))])), fun r => gives (boxArrScan coords none r) (some [(((.fin false (1 * 2 ^ 1074)), (.fin false (1 * 2 ^ 1074))), ((.fin false 0), (.fin false 0)))])⟩,
    ⟨21, stored (boxArrValue coords (some [(((.fin false (1 * 2 ^ 1074)), (.fin false (1 * 2 ^ 1074))), ((.fin false 0), (.fin false 0))), (((.fin false 0), (.fin false 0)), ((.fin false (1 * 2 ^ 1074)), (.fin false (1 * 2 ^ 1074))))])), fun r => gives (boxArrScan coords none r) (some [(((.fin false (1 * 2 ^ 1074)), (.fin false (1 * 2 ^ 1074))), ((.fin false 0), (.fin false 0))), (((.fin false (1 * 2 ^ 1074)), (.fin false (1 * 2 ^ 1074))), ((.fin false 0), (.fin false 0)))])⟩,
    ⟨24, stored (boxArrValue coords (some [(((.fin false (9 * 2 ^ 1073)), (.fin false (889460926405673 * 2 ^ 1024))), ((.fin false (3602879701896397 * 2 ^ 1024)), (.fin false (6338816475523973 * 2 ^ 1024)))), (((.fin false (6131932367641641 * 2 ^ 1027)), (.fin false (2386907802506363 * 2 ^ 1024))), ((.fin false (2809120267572347 * 2 ^ 1025)), (.fin false (7926335344172073 * 2 ^ 1019)))), (((.fin false (7926335344172073 * 2 ^ 1019)), (.fin false (5584463537939415 * 2 ^ 1020))), ((.fin false (1 * 2 ^ 1076)), (.fin false (4818851601286431 * 2 ^ 1022))))])), fun r => gives (boxArrScan coords none r) (some [(((.fin false (9 * 2 ^ 1073)), (.fin false (6338816475523973 * 2 ^ 1024))), ((.fin false (3602879701896397 * 2 ^ 1024)), (.fin false (889460926405673 * 2 ^ 1024)))), (((.fin false (6131932367641641 * 2 ^ 1027)), (.fin false (2386907802506363 * 2 ^ 1024))), ((.fin false (2809120267572347 * 2 ^ 1025)), (.fin false (7926335344172073 * 2 ^ 1019)))), (((.fin false (1 * 2 ^ 1076)), (.fin false (4818851601286431 * 2 ^ 1022))), ((.fin false (7926335344172073 * 2 ^ 1019)), (.fin false (5584463537939415 * 2 ^ 1020))))])⟩]
  texts := [
    (39, b!"{}", b!"{}"),
    (42, b!"{(0,0),(0,0)}", b!"{(0,0),(0,0)}"),
    (45, b!"{(1,1),(0,0);(0,0),(1,1)}", b!"{(1,1),(0,0);(1,1),(0,0)}"),
    (48, b!"{(4.5,0.79),(3.2,5.63);(43.57,2.12),(4.99,0.22);(0.22,0.31),(4,1.07)}", b!"{(4.5,5.63),(3.2,0.79);(43.57,2.12),(4.99,0.22);(4,1.07),(0.22,0.31)}"),
    (54, b!"{}", b!"{}"),
    (57, b!"{(0,0),(0,0)}", b!"{(0,0),(0,0)}"),
    (60, b!"{(1,1),(0,0);(0,0),(1,1)}", b!"{(1,1),(0,0);(1,1),(0,0)}"),
    (63, b!"{(4.5,0.79),(3.2,5.63);(43.57,2.12),(4.99,0.22);(0.22,0.31),(4,1.07)}", b!"{(4.5,5.63),(3.2,0.79);(43.57,2.12),(4.99,0.22);(4,1.07),(0.22,0.31)}")]

theorem boxarr_ok : boxarrFile.ok = true := by decide +kernel

/-- /repo/pgsql/bpchar_test.go: 7 cases with a valuer and a scanner, 2 texts. -/
def bpcharFile : File where
  name := "bpchar_test.go"
  col := chars
  cases := [
    ⟨12, .text (charFromByte (Char.ofNat 65)), fun r => decide (charToByte '\x00' r = (Char.ofNat 65))⟩,
    ⟨13, .text (charFromByte (Char.ofNat 98)), fun r => decide (charToByte '\x00' r = (Char.ofNat 98))⟩,
    ⟨14, .text (charFromByte (Char.ofNat 88)), fun r => decide (charToByte '\x00' r = (Char.ofNat 88))⟩,
    ⟨15, .text (charFromByte (Char.ofNat 122)), fun r => decide (charToByte '\x00' r = (Char.ofNat 122))⟩,
    ⟨21, .text (charFromRune (Char.ofNat 65)), fun r => decide (charToRune '\x00' r = (Char.ofNat 65))⟩,
    ⟨22, .text (charFromRune (Char.ofNat 39340)), fun r => decide (charToRune '\x00' r = (Char.ofNat 39340))⟩,
    ⟨23, .text (charFromRune (Char.ofNat 39406)), fun r => decide (charToRune '\x00' r = (Char.ofNat 39406))⟩]
  texts := [
    (27, b!"a", b!"a"),
    (28, b!"\xe9\xa6\xac", b!"\xe9\xa6\xac")]

theorem bpchar_ok : bpcharFile.ok = true := by decide +kernel

/-- /repo/pgsql/bpchararr_test.go: 42 cases with a valuer and a scanner, 20 texts. -/
def bpchararrFile : File where
  name := "bpchararr_test.go"
  col := arrayOf chars
  cases := [
    ⟨12, stored (charFromString b!""), fun r => gives (charToString [] r) b!""⟩,
    ⟨13, stored (charFromString b!"abc"), fun r => gives (charToString [] r) b!"abc"⟩,
    ⟨14, stored (charFromString b!"ab'"), fun r => gives (charToString [] r) b!"ab'"⟩,
    ⟨15, stored (charFromString b!"a,'"), fun r => gives (charToString [] r) b!"a,'"⟩,
    ⟨16, stored (charFromString b!"\",'"), fun r => gives (charToString [] r) b!"\",'"⟩,
    ⟨17, stored (charFromString b!"魔,'"), fun r => gives (charToString [] r) b!"\xe9\xad\x94,'"⟩,
    ⟨18, stored (charFromString b!"\"\"'"), fun r => gives (charToString [] r) b!"\"\"'"⟩,
    ⟨19, stored (charFromString b!"\x09 \x0d"), fun r => gives (charToString [] r) b!"\x09 \x0d"⟩,
    ⟨20, stored (charFromString b!"\x0c\x0a"), fun r => gives (charToString [] r) b!"\x0c\x0a"⟩,
    ⟨21, stored (charFromString b!"\x0b\\"), fun r => gives (charToString [] r) b!"\x0b\\"⟩,
    ⟨31, stored (charFromBytes none), fun r => gives (charToBytes none r) none⟩,
    ⟨32, stored (charFromBytes (some b!"")), fun r => gives (charToBytes none r) (some b!"")⟩,
    ⟨33, stored (charFromBytes (some b!"abc")), fun r => gives (charToBytes none r) (some b!"abc")⟩,
    ⟨34, stored (charFromBytes (some b!"ab'")), fun r => gives (charToBytes none r) (some b!"ab'")⟩,
    ⟨35, stored (charFromBytes (some b!"a,'")), fun r => gives (charToBytes none r) (some b!"a,'")⟩,
    ⟨36, stored (charFromBytes (some b!"\",'")), fun r => gives (charToBytes none r) (some b!"\",'")⟩,
    ⟨37, stored (charFromBytes (some b!"\"\"'")), fun r => gives (charToBytes none r) (some b!"\"\"'")⟩,
    ⟨38, stored (charFromBytes (some b!"\x09 \x0d")), fun r => gives (charToBytes none r) (some b!"\x09 \x0d")⟩,
    ⟨39, stored (charFromBytes (some b!"\x0c\x0a")), fun r => gives (charToBytes none r) (some b!"\x0c\x0a")⟩,
    ⟨40, stored (charFromBytes (some b!"\x0b\\")), fun r => gives (charToBytes none r) (some b!"\x0b\\")⟩,
    ⟨53, stored (charFromRunes none), fun r => gives (charToRunes none r) none⟩,
    ⟨54, stored (charFromRunes (some b!"")), fun r => gives (charToRunes none r) (some b!"")⟩,
    ⟨55, stored (charFromRunes (some b!"abc")), fun r => gives (charToRunes none r) (some b!"abc")⟩,
    ⟨56, stored (charFromRunes (some b!"ab'")), fun r => gives (charToRunes none r) (some b!"ab'")⟩,
    ⟨57, stored (charFromRunes (some b!"a,'")), fun r => gives (charToRunes none r) (some b!"a,'")⟩,
    ⟨58, stored (charFromRunes (some b!"\",'")), fun r => gives (charToRunes none r) (some b!"\",'")⟩,
    ⟨59, stored (charFromRunes (some b!"\"\"'")), fun r => gives (charToRunes none r) (some b!"\"\"'")⟩,
    ⟨60, stored (charFromRunes (some b!"\x09 \x0d")), fun r => gives (charToRunes none r) (some b!"\x09 \x0d")⟩,
    ⟨61, stored (charFromRunes (some b!"\x0c\x0a")), fun r => gives (charToRunes none r) (some b!"\x0c\x0a")⟩,
    ⟨62, stored (charFromRunes (some b!"\x0b\\")), fun r => gives (charToRunes none r) (some b!"\x0b\\")⟩,
    ⟨63, stored (charFromRunes (some b!"魔,'")), fun r => gives (charToRunes none r) (some b!"魔,'")⟩,
    ⟨73, stored (charFromRunes none), fun r => gives (charToRunes none r) none⟩,
    ⟨74, stored (charFromRunes (some b!"")), fun r => gives (charToRunes none r) (some b!"")⟩,
    ⟨75, stored (charFromRunes (some b!"abc")), fun r => gives (charToRunes none r) (some b!"abc")⟩,
    ⟨76, stored (charFromRunes (some b!"ab'")), fun r => gives (charToRunes none r) (some b!"ab'")⟩,
    ⟨77, stored (charFromRunes (some b!"a,'")), fun r => gives (charToRunes none r) (some b!"a,'")⟩,
    ⟨78, stored (charFromRunes (some b!"\",'")), fun r => gives (charToRunes none r) (some b!"\",'")⟩,
    ⟨79, stored (charFromRunes (some b!"\"\"'")), fun r => gives (charToRunes none r) (some b!"\"\"'")⟩,
    ⟨80, stored (charFromRunes (some b!"\x09 \x0d")), fun r => gives (charToRunes none r) (some b!"\x09 \x0d")⟩,
    ⟨81, stored (charFromRunes (some b!"\x0c\x0a")), fun r => gives (charToRunes none r) (some b!"\x0c\x0a")⟩,
    ⟨82, stored (charFromRunes (some b!"\x0b\\")), fun r => gives (charToRunes none r) (some b!"\x0b\\")⟩,
    ⟨83, stored (charFromRunes (some b!"魔,'")), fun r => gives (charToRunes none r) (some b!"魔,'")⟩]
  texts := [
    (91, b!"{}", b!"{}"),
    (92, b!"{a,b,c}", b!"{a,b,c}"),
    (95, b!"{a,b,'}", b!"{a,b,'}"),
    (98, b!"{a,\",\",'}", b!"{a,\",\",'}"),
    (101, b!"{\"\\\"\",\",\",'}", b!"{\"\\\"\",\",\",'}"),
    (104, b!"{\xe9\xad\x94,\",\",'}", b!"{\xe9\xad\x94,\",\",'}"),
    (107, b!"{\"\\\"\",\"\\\"\",'}", b!"{\"\\\"\",\"\\\"\",'}"),
    (110, b!"{\"\x09\",\" \",\"\x0d\"}", b!"{\"\x09\",\" \",\"\x0d\"}"),
    (113, b!"{\"\x0c\",\"\x0a\"}", b!"{\"\x0c\",\"\x0a\"}"),
    (116, b!"{\"\x0b\",\"\\\\\"}", b!"{\"\x0b\",\"\\\\\"}"),
    (126, b!"{}", b!"{}"),
    (127, b!"{a,b,c}", b!"{a,b,c}"),
    (130, b!"{a,b,'}", b!"{a,b,'}"),
    (133, b!"{a,\",\",'}", b!"{a,\",\",'}"),
    (136, b!"{\"\\\"\",\",\",'}", b!"{\"\\\"\",\",\",'}"),
    (139, b!"{\xe9\xad\x94,\",\",'}", b!"{\xe9\xad\x94,\",\",'}"),
    (142, b!"{\"\\\"\",\"\\\"\",'}", b!"{\"\\\"\",\"\\\"\",'}"),
    (145, b!"{\"\x09\",\" \",\"\x0d\"}", b!"{\"\x09\",\" \",\"\x0d\"}"),
    (148, b!"{\"\x0c\",\"\x0a\"}", b!"{\"\x0c\",\"\x0a\"}"),
    (151, b!"{\"\x0b\",\"\\\\\"}", b!"{\"\x0b\",\"\\\\\"}")]

theorem bpchararr_ok : bpchararrFile.ok = true := by decide +kernel

/-- /repo/pgsql/byteaarr_test.go: 10 cases with a valuer and a scanner, 8 texts. -/
def byteaarrFile : File where
  name := "byteaarr_test.go"
  col := arrayOf bytea
  cases := [
    ⟨12, stored (byteaFromBytes none), fun r => gives (byteaToBytes none r) none⟩,
    ⟨13, stored (byteaFromBytes (some [])), fun r => gives (byteaToBytes none r) (some [])⟩,
    ⟨14, stored (byteaFromBytes (some [[], []])), fun r => gives (byteaToBytes none r) (some [[], []])⟩,
    ⟨17, stored (byteaFromBytes (some [[97, 98, 99], [100, 101, 102]])), fun r => gives (byteaToBytes none r) (some [[97, 98, 99], [100, 101, 102]])⟩,
    ⟨20, stored (byteaFromBytes (some [[92, 120, 100, 101, 97, 100, 98, 101, 101, 102], [92, 120, 68, 69, 65, 68, 66, 69, 69, 70]])), fun r => gives (byteaToBytes none r) (some [[92, 120, 100, 101, 97, 100, 98, 101, 101, 102], [92, 120, 68, 69, 65, 68, 66, 69, 69, 70]])⟩,
    ⟨28, stored (byteaFromBytes none), fun r => gives (byteaToBytes none r) none⟩,
    ⟨29, stored (byteaFromBytes (some [])), fun r => gives (byteaToBytes none r) (some [])⟩,
    ⟨30, stored (byteaFromBytes (some [[], []])), fun r => gives (byteaToBytes none r) (some [[], []])⟩,
    ⟨33, stored (byteaFromBytes (some [[97, 98, 99], [100, 101, 102]])), fun r => gives (byteaToBytes none r) (some [[97, 98, 99], [100, 101, 102]])⟩,
    ⟨36, stored (byteaFromBytes (some [[92, 120, 100, 101, 97, 100, 98, 101, 101, 102], [92, 120, 68, 69, 65, 68, 66, 69, 69, 70]])), fun r => gives (byteaToBytes none r) (some [[92, 120, 100, 101, 97, 100, 98, 101, 101, 102], [92, 120, 68, 69, 65, 68, 66, 69, 69, 70]])⟩]
  texts := [
    (42, b!"{}", b!"{}"),
    (43, b!"{\"\\\\x\",\"\\\\x\"}", b!"{\"\\\\x\",\"\\\\x\"}"),
    (46, b!"{\"\\\\x616263\",\"\\\\x646566\"}", b!"{\"\\\\x616263\",\"\\\\x646566\"}"),
    (49, b!"{\"\\\\x5c786465616462656566\",\"\\\\x5c784445414442454546\"}", b!"{\"\\\\x5c786465616462656566\",\"\\\\x5c784445414442454546\"}"),
    (55, b!"{}", b!"{}"),
    (56, b!"{\"\\\\x\",\"\\\\x\"}", b!"{\"\\\\x\",\"\\\\x\"}"),
    (59, b!"{\"\\\\x616263\",\"\\\\x646566\"}", b!"{\"\\\\x616263\",\"\\\\x646566\"}"),
    (62, b!"{\"\\\\x5c786465616462656566\",\"\\\\x5c784445414442454546\"}", b!"{\"\\\\x5c786465616462656566\",\"\\\\x5c784445414442454546\"}")]

theorem byteaarr_ok : byteaarrFile.ok = true := by decide +kernel

/-- /repo/pgsql/char_test.go: 7 cases with a valuer and a scanner, 6 texts. -/
def charFile : File where
  name := "char_test.go"
  col := chars
  cases := [
    ⟨12, .text (charFromByte (Char.ofNat 65)), fun r => decide (charToByte '\x00' r = (Char.ofNat 65))⟩,
    ⟨13, .text (charFromByte (Char.ofNat 98)), fun r => decide (charToByte '\x00' r = (Char.ofNat 98))⟩,
    ⟨14, .text (charFromByte (Char.ofNat 88)), fun r => decide (charToByte '\x00' r = (Char.ofNat 88))⟩,
    ⟨20, .text (charFromRune (Char.ofNat 65)), fun r => decide (charToRune '\x00' r = (Char.ofNat 65))⟩,
    ⟨21, .text (charFromRune (Char.ofNat 122)), fun r => decide (charToRune '\x00' r = (Char.ofNat 122))⟩,
    ⟨22, .text (charFromRune (Char.ofNat 39340)), fun r => decide (charToRune '\x00' r = (Char.ofNat 39340))⟩,
    ⟨23, .text (charFromRune (Char.ofNat 39406)), fun r => decide (charToRune '\x00' r = (Char.ofNat 39406))⟩]
  texts := [
    (27, b!"A", b!"A"),
    (28, b!"z", b!"z"),
    (29, b!"\xe9\xa6\xac", b!"\xe9\xa6\xac"),
    (30, b!"\xe9\xa7\xae", b!"\xe9\xa7\xae"),
    (34, b!"A", b!"A"),
    (35, b!"z", b!"z")]

theorem char_ok : charFile.ok = true := by decide +kernel

/-- /repo/pgsql/chararr_test.go: 42 cases with a valuer and a scanner, 20 texts. -/
def chararrFile : File where
  name := "chararr_test.go"
  col := arrayOf chars
  cases := [
    ⟨12, stored (charFromString b!""), fun r => gives (charToString [] r) b!""⟩,
    ⟨13, stored (charFromString b!"abc"), fun r => gives (charToString [] r) b!"abc"⟩,
    ⟨14, stored (charFromString b!"ab'"), fun r => gives (charToString [] r) b!"ab'"⟩,
    ⟨15, stored (charFromString b!"a,'"), fun r => gives (charToString [] r) b!"a,'"⟩,
    ⟨16, stored (charFromString b!"\",'"), fun r => gives (charToString [] r) b!"\",'"⟩,
    ⟨17, stored (charFromString b!"魔,'"), fun r => gives (charToString [] r) b!"\xe9\xad\x94,'"⟩,
    ⟨18, stored (charFromString b!"\"\"'"), fun r => gives (charToString [] r) b!"\"\"'"⟩,
    ⟨19, stored (charFromString b!"\x09 \x0d"), fun r => gives (charToString [] r) b!"\x09 \x0d"⟩,
    ⟨20, stored (charFromString b!"\x0c\x0a"), fun r => gives (charToString [] r) b!"\x0c\x0a"⟩,
    ⟨21, stored (charFromString b!"\x0b\\"), fun r => gives (charToString [] r) b!"\x0b\\"⟩,
    ⟨31, stored (charFromBytes none), fun r => gives (charToBytes none r) none⟩,
    ⟨32, stored (charFromBytes (some b!"")), fun r => gives (charToBytes none r) (some b!"")⟩,
    ⟨33, stored (charFromBytes (some b!"abc")), fun r => gives (charToBytes none r) (some b!"abc")⟩,
    ⟨34, stored (charFromBytes (some b!"ab'")), fun r => gives (charToBytes none r) (some b!"ab'")⟩,
    ⟨35, stored (charFromBytes (some b!"a,'")), fun r => gives (charToBytes none r) (some b!"a,'")⟩,
    ⟨36, stored (charFromBytes (some b!"\",'")), fun r => gives (charToBytes none r) (some b!"\",'")⟩,
    ⟨37, stored (charFromBytes (some b!"\"\"'")), fun r => gives (charToBytes none r) (some b!"\"\"'")⟩,
    ⟨38, stored (charFromBytes (some b!"\x09 \x0d")), fun r => gives (charToBytes none r) (some b!"\x09 \x0d")⟩,
    ⟨39, stored (charFromBytes (some b!"\x0c\x0a")), fun r => gives (charToBytes none r) (some b!"\x0c\x0a")⟩,
    ⟨40, stored (charFromBytes (some b!"\x0b\\")), fun r => gives (charToBytes none r) (some b!"\x0b\\")⟩,
    ⟨53, stored (charFromRunes none), fun r => gives (charToRunes none r) none⟩,
    ⟨54, stored (charFromRunes (some b!"")), fun r => gives (charToRunes none r) (some b!"")⟩,
    ⟨55, stored (charFromRunes (some b!"abc")), fun r => gives (charToRunes none r) (some b!"abc")⟩,
    ⟨56, stored (charFromRunes (some b!"ab'")), fun r => gives (charToRunes none r) (some b!"ab'")⟩,
    ⟨57, stored (charFromRunes (some b!"a,'")), fun r => gives (charToRunes none r) (some b!"a,'")⟩,
    ⟨58, stored (charFromRunes (some b!"\",'")), fun r => gives (charToRunes none r) (some b!"\",'")⟩,
    ⟨59, stored (charFromRunes (some b!"\"\"'")), fun r => gives (charToRunes none r) (some b!"\"\"'")⟩,
    ⟨60, stored (charFromRunes (some b!"\x09 \x0d")), fun r => gives (charToRunes none r) (some b!"\x09 \x0d")⟩,
    ⟨61, stored (charFromRunes (some b!"\x0c\x0a")), fun r => gives (charToRunes none r) (some b!"\x0c\x0a")⟩,
    ⟨62, stored (charFromRunes (some b!"\x0b\\")), fun r => gives (charToRunes none r) (some b!"\x0b\\")⟩,
    ⟨63, stored (charFromRunes (some b!"魔,'")), fun r => gives (charToRunes none r) (some b!"魔,'")⟩,
    ⟨73, stored (charFromRunes none), fun r => gives (charToRunes none r) none⟩,
    ⟨74, stored (charFromRunes (some b!"")), fun r => gives (charToRunes none r) (some b!"")⟩,
    ⟨75, stored (charFromRunes (some b!"abc")), fun r => gives (charToRunes none r) (some b!"abc")⟩,
    ⟨76, stored (charFromRunes (some b!"ab'")), fun r => gives (charToRunes none r) (some b!"ab'")⟩,
    ⟨77, stored (charFromRunes (some b!"a,'")), fun r => gives (charToRunes none r) (some b!"a,'")⟩,
    ⟨78, stored (charFromRunes (some b!"\",'")), fun r => gives (charToRunes none r) (some b!"\",'")⟩,
    ⟨79, stored (charFromRunes (some b!"\"\"'")), fun r => gives (charToRunes none r) (some b!"\"\"'")⟩,
    ⟨80, stored (charFromRunes (some b!"\x09 \x0d")), fun r => gives (charToRunes none r) (some b!"\x09 \x0d")⟩,
    ⟨81, stored (charFromRunes (some b!"\x0c\x0a")), fun r => gives (charToRunes none r) (some b!"\x0c\x0a")⟩,
    ⟨82, stored (charFromRunes (some b!"\x0b\\")), fun r => gives (charToRunes none r) (some b!"\x0b\\")⟩,
    ⟨83, stored (charFromRunes (some b!"魔,'")), fun r => gives (charToRunes none r) (some b!"魔,'")⟩]
  texts := [
    (91, b!"{}", b!"{}"),
    (92, b!"{a,b,c}", b!"{a,b,c}"),
    (93, b!"{a,b,'}", b!"{a,b,'}"),
    (94, b!"{a,\",\",'}", b!"{a,\",\",'}"),
    (95, b!"{\"\\\"\",\",\",'}", b!"{\"\\\"\",\",\",'}"),
    (96, b!"{\xe9\xad\x94,\",\",'}", b!"{\xe9\xad\x94,\",\",'}"),
    (97, b!"{\"\\\"\",\"\\\"\",'}", b!"{\"\\\"\",\"\\\"\",'}"),
    (98, b!"{\"\x09\",\" \",\"\x0d\"}", b!"{\"\x09\",\" \",\"\x0d\"}"),
    (101, b!"{\"\x0c\",\"\x0a\"}", b!"{\"\x0c\",\"\x0a\"}"),
    (104, b!"{\"\x0b\",\"\\\\\"}", b!"{\"\x0b\",\"\\\\\"}"),
    (114, b!"{}", b!"{}"),
    (115, b!"{a,b,c}", b!"{a,b,c}"),
    (116, b!"{a,b,'}", b!"{a,b,'}"),
    (117, b!"{a,\",\",'}", b!"{a,\",\",'}"),
    (118, b!"{\"\\\"\",\",\",'}", b!"{\"\\\"\",\",\",'}"),
    (119, b!"{\xe9\xad\x94,\",\",'}", b!"{\xe9\xad\x94,\",\",'}"),
    (120, b!"{\"\\\"\",\"\\\"\",'}", b!"{\"\\\"\",\"\\\"\",'}"),
    (121, b!"{\"\x09\",\" \",\"\x0d\"}", b!"{\"\x09\",\" \",\"\x0d\"}"),
    (124, b!"{\"\x0c\",\"\x0a\"}", b!"{\"\x0c\",\"\x0a\"}"),
    (127, b!"{\"\x0b\",\"\\\\\"}", b!"{\"\x0b\",\"\\\\\"}")]

theorem chararr_ok : chararrFile.ok = true := by decide +kernel

/-- /repo/pgsql/cidr_test.go: 5 cases with a valuer and a scanner, 8 texts. -/
def cidrFile : File where
  name := "cidr_test.go"
  col := cidr
  cases := [
    ⟨13, stored (cidrFromNet ⟨none, none⟩), fun r => gives (cidrToNet ⟨none, none⟩ r) ⟨none, none⟩⟩,
    ⟨16, stored (cidrFromNet ⟨some [192, 168, 100, 128], some [255, 255, 255, 128]⟩), fun r => gives (cidrToNet ⟨none, none⟩ r) ⟨some [192, 168, 100, 128], some [255, 255, 255, 128]⟩⟩,
    ⟨19, stored (cidrFromNet ⟨some [128, 1, 0, 0], some [255, 255, 0, 0]⟩), fun r => gives (cidrToNet ⟨none, none⟩ r) ⟨some [128, 1, 0, 0], some [255, 255, 0, 0]⟩⟩,
    ⟨22, stored (cidrFromNet ⟨some [32, 1, 4, 248, 0, 3, 0, 186, 0, 0, 0, 0, 0, 0, 0, 0], some [255, 255, 255, 255, 255, 255, 255, 255, 0, 0, 0, 0, 0, 0, 0, 0]⟩), fun r => gives (cidrToNet ⟨none, none⟩ r) ⟨some [32, 1, 4, 248, 0, 3, 0, 186, 0, 0, 0, 0, 0, 0, 0, 0], some [255, 255, 255, 255, 255, 255, 255, 255, 0, 0, 0, 0, 0, 0, 0, 0]⟩⟩,
    ⟨25, stored (cidrFromNet ⟨some [32, 1, 4, 248, 0, 3, 0, 186, 2, 224, 129, 255, 254, 34, 209, 241], some [255, 255, 255, 255, 255, 255, 255, 255, 255, 255, 255, 255, 255, 255, 255, 255]⟩), fun r => gives (cidrToNet ⟨none, none⟩ r) ⟨some [32, 1, 4, 248, 0, 3, 0, 186, 2, 224, 129, 255, 254, 34, 209, 241], some [255, 255, 255, 255, 255, 255, 255, 255, 255, 255, 255, 255, 255, 255, 255, 255]⟩⟩]
  texts := [
    (31, b!"192.168.100.128/25", b!"192.168.100.128/25"),
    (34, b!"128.1.0.0/16", b!"128.1.0.0/16"),
    (37, b!"2001:4f8:3:ba::/64", b!"2001:4f8:3:ba::/64"),
    (40, b!"2001:4f8:3:ba:2e0:81ff:fe22:d1f1/128", b!"2001:4f8:3:ba:2e0:81ff:fe22:d1f1/128"),
    (46, b!"192.168.100.128/25", b!"192.168.100.128/25"),
    (49, b!"128.1.0.0/16", b!"128.1.0.0/16"),
    (52, b!"2001:4f8:3:ba::/64", b!"2001:4f8:3:ba::/64"),
    (55, b!"2001:4f8:3:ba:2e0:81ff:fe22:d1f1/128", b!"2001:4f8:3:ba:2e0:81ff:fe22:d1f1/128")]

theorem cidr_ok : cidrFile.ok = true := by decide +kernel

/-- /repo/pgsql/cidrarr_test.go: 5 cases with a valuer and a scanner, 8 texts. -/
def cidrarrFile : File where
  name := "cidrarr_test.go"
  col := arrayOf cidr
  cases := [
    ⟨13, stored (netArrValue none), fun r => gives (cidrArrToNets none r) none⟩,
    ⟨16, stored (netArrValue (some [⟨some [192, 168, 100, 128], some [255, 255, 255, 128]⟩])), fun r => gives (cidrArrToNets none r) (some [⟨some [192, 168, 100, 128], some [255, 255, 255, 128]⟩])⟩,
    ⟨19, stored (netArrValue (some [⟨some [192, 168, 100, 128], some [255, 255, 255, 128]⟩, ⟨some [128, 1, 0, 0], some [255, 255, 0, 0]⟩])), fun r => gives (cidrArrToNets none r) (some [⟨some [192, 168, 100, 128], some [255, 255, 255, 128]⟩, ⟨some [128, 1, 0, 0], some [255, 255, 0, 0]⟩])⟩,
    ⟨22, stored (netArrValue (some [⟨some [32, 1, 4, 248, 0, 3, 0, 186, 0, 0, 0, 0, 0, 0, 0, 0], some [255, 255, 255, 255, 255, 255, 255, 255, 0, 0, 0, 0, 0, 0, 0, 0]⟩, ⟨some [128, 1, 0, 0], some [255, 255, 0, 0]⟩])), fun r => gives (cidrArrToNets none r) (some [⟨some [32, 1, 4, 248, 0, 3, 0, 186, 0, 0, 0, 0, 0, 0, 0, 0], some [255, 255, 255, 255, 255, 255, 255, 255, 0, 0, 0, 0, 0, 0, 0, 0]⟩, ⟨some [128, 1, 0, 0], some [255, 255, 0, 0]⟩])⟩,
    ⟨25, stored (netArrValue (some [⟨some [32, 1, 4, 248, 0, 3, 0, 186, 2, 224, 129, 255, 254, 34, 209, 241], some [255, 255, 255, 255, 255, 255, 255, 255, 255, 255, 255, 255, 255, 255, 255, 255]⟩, ⟨some [32, 1, 4, 248, 0, 3, 0, 186, 0, 0, 0, 0, 0, 0, 0, 0], some [255, 255, 255, 255, 255, 255, 255, 255, 0, 0, 0, 0, 0, 0, 0, 0]⟩])), fun r => gives (cidrArrToNets none r) (some [⟨some [32, 1, 4, 248, 0, 3, 0, 186, 2, 224, 129, 255, 254, 34, 209, 241], some [255, 255, 255, 255, 255, 255, 255, 255, 255, 255, 255, 255, 255, 255, 255, 255]⟩, ⟨some [32, 1, 4, 248, 0, 3, 0, 186, 0, 0, 0, 0, 0, 0, 0, 0], some [255, 255, 255, 255, 255, 255, 255, 255, 0, 0, 0, 0, 0, 0, 0, 0]⟩])⟩]
  texts := [
    (31, b!"{192.168.100.128/25}", b!"{192.168.100.128/25}"),
    (34, b!"{192.168.100.128/25,128.1.0.0/16}", b!"{192.168.100.128/25,128.1.0.0/16}"),
    (37, b!"{2001:4f8:3:ba::/64,128.1.0.0/16}", b!"{2001:4f8:3:ba::/64,128.1.0.0/16}"),
    (40, b!"{2001:4f8:3:ba:2e0:81ff:fe22:d1f1/128,2001:4f8:3:ba::/64}", b!"{2001:4f8:3:ba:2e0:81ff:fe22:d1f1/128,2001:4f8:3:ba::/64}"),
    (46, b!"{192.168.100.128/25}", b!"{192.168.100.128/25}"),
    (49, b!"{192.168.100.128/25,128.1.0.0/16}", b!"{192.168.100.128/25,128.1.0.0/16}"),
    (52, b!"{2001:4f8:3:ba::/64,128.1.0.0/16}", b!"{2001:4f8:3:ba::/64,128.1.0.0/16}"),
    (55, b!"{2001:4f8:3:ba:2e0:81ff:fe22:d1f1/128,2001:4f8:3:ba::/64}", b!"{2001:4f8:3:ba:2e0:81ff:fe22:d1f1/128,2001:4f8:3:ba::/64}")]

theorem cidrarr_ok : cidrarrFile.ok = true := by decide +kernel

/-- /repo/pgsql/date_test.go: 6 cases with a valuer and a scanner, 0 texts. -/
def dateFile : File where
  name := "date_test.go"
  col := date
  cases := [
    ⟨18, .text b!"1999-01-08", fun r => decide (dateToString (asDate r) = b!"1999-01-08")⟩,
    ⟨19, .text b!"2001-05-05", fun r => decide (dateToString (asDate r) = b!"2001-05-05")⟩,
    ⟨20, .text b!"2020-03-28", fun r => decide (dateToString (asDate r) = b!"2020-03-28")⟩,
    ⟨25, .text b!"1999-01-08", fun r => decide (dateToString (asDate r) = b!"1999-01-08")⟩,
    ⟨26, .text b!"2001-05-05", fun r => decide (dateToString (asDate r) = b!"2001-05-05")⟩,
    ⟨27, .text b!"2020-03-28", fun r => decide (dateToString (asDate r) = b!"2020-03-28")⟩]
  texts := []

theorem date_ok : dateFile.ok = true := by decide +kernel

/-- /repo/pgsql/datearr_test.go: 5 cases with a valuer and a scanner, 7 texts. -/
def datearrFile : File where
  name := "datearr_test.go"
  col := arrayOf date
  cases := [
    ⟨13, stored (timeArrValue dateLayout none), fun r => gives (timeArrScan dateLayout none r) none⟩,
    ⟨14, stored (timeArrValue dateLayout (some [])), fun r => gives (timeArrScan dateLayout none r) (some [])⟩,
    ⟨15, stored (timeArrValue dateLayout (some [{ year := 1999, month := 1, day := 8, hour := 0, minute := 0, second := 0, nano := 0 }])), fun r => gives (timeArrScan dateLayout none r) (some [{ year := 1999, month := 1, day := 8, hour := 0, minute := 0, second := 0, nano := 0 }])⟩,
    ⟨18, stored (timeArrValue dateLayout (some [{ year := 1999, month := 1, day := 8, hour := 0, minute := 0, second := 0, nano := 0 }, { year := 2001, month := 5, day := 5, hour := 0, minute := 0, second := 0, nano := 0 }])), fun r => gives (timeArrScan dateLayout none r) (some [{ year := 1999, month := 1, day := 8, hour := 0, minute := 0, second := 0, nano := 0 }, { year := 2001, month := 5, day := 5, hour := 0, minute := 0, second := 0, nano := 0 }])⟩,
    ⟨21, stored (timeArrValue dateLayout (some [{ year := 2020, month := 3, day := 28, hour := 0, minute := 0, second := 0, nano := 0 }, { year := 2001, month := 5, day := 5, hour := 0, minute := 0, second := 0, nano := 0 }])), fun r => gives (timeArrScan dateLayout none r) (some [{ year := 2020, month := 3, day := 28, hour := 0, minute := 0, second := 0, nano := 0 }, { year := 2001, month := 5, day := 5, hour := 0, minute := 0, second := 0, nano := 0 }])⟩]
  texts := [
    (27, b!"{}", b!"{}"),
    (28, b!"{1999-01-08}", b!"{1999-01-08}"),
    (29, b!"{1999-01-08,2001-05-05}", b!"{1999-01-08,2001-05-05}"),
    (30, b!"{2020-03-28,2001-05-05}", b!"{2020-03-28,2001-05-05}"),
    (34, b!"{1999-01-08}", b!"{1999-01-08}"),
    (35, b!"{1999-01-08,2001-05-05}", b!"{1999-01-08,2001-05-05}"),
    (36, b!"{2020-03-28,2001-05-05}", b!"{2020-03-28,2001-05-05}")]

theorem datearr_ok : datearrFile.ok = true := by decide +kernel

/-- /repo/pgsql/daterange_test.go: 5 cases with a valuer and a scanner, 12 texts. -/
def daterangeFile : File where
  name := "daterange_test.go"
  col := daterange
  cases := [
    ⟨13, .text (dateRangeValue ({ year := 1, month := 1, day := 1, hour := 0, minute := 0, second := 0, nano := 0 }, { year := 1, month := 1, day := 1, hour := 0, minute := 0, second := 0, nano := 0 })), fun r => gives (dateRangeScan (zeroTime, zeroTime) r) ({ year := 1, month := 1, day := 1, hour := 0, minute := 0, second := 0, nano := 0 }, { year := 1, month := 1, day := 1, hour := 0, minute := 0, second := 0, nano := 0 })⟩,
    ⟨14, .text (dateRangeValue ({ year := 1999, month := 1, day := 8, hour := 0, minute := 0, second := 0, nano := 0 }, { year := 2001, month := 5, day := 5, hour := 0, minute := 0, second := 0, nano := 0 })), fun r => gives (dateRangeScan (zeroTime, zeroTime) r) ({ year := 1999, month := 1, day := 8, hour := 0, minute := 0, second := 0, nano := 0 }, { year := 2001, month := 5, day := 5, hour := 0, minute := 0, second := 0, nano := 0 })⟩,
    ⟨17, .text (dateRangeValue ({ year := 1, month := 1, day := 1, hour := 0, minute := 0, second := 0, nano := 0 }, { year := 2001, month := 5, day := 5, hour := 0, minute := 0, second := 0, nano := 0 })), fun r => gives (dateRangeScan (zeroTime, zeroTime) r) ({ year := 1, month := 1, day := 1, hour := 0, minute := 0, second := 0, nano := 0 }, { year := 2001, month := 5, day := 5, hour := 0, minute := 0, second := 0, nano := 0 })⟩,
    ⟨20, .text (dateRangeValue ({ year := 1999, month := 1, day := 8, hour := 0, minute := 0, second := 0, nano := 0 }, { year := 1, month := 1, day := 1, hour := 0, minute := 0, second := 0, nano := 0 })), fun r => gives (dateRangeScan (zeroTime, zeroTime) r) ({ year := 1999, month := 1, day := 8, hour := 0, minute := 0, second := 0, nano := 0 }, { year := 1, month := 1, day := 1, hour := 0, minute := 0, second := 0, nano := 0 })⟩,
    ⟨23, .text (dateRangeValue ({ year := 1, month := 1, day := 1, hour := 0, minute := 0, second := 0, nano := 0 }, { year := 1, month := 1, day := 1, hour := 0, minute := 0, second := 0, nano := 0 })), fun r => gives (dateRangeScan (zeroTime, zeroTime) r) ({ year := 1, month := 1, day := 1, hour := 0, minute := 0, second := 0, nano := 0 }, { year := 1, month := 1, day := 1, hour := 0, minute := 0, second := 0, nano := 0 })⟩]
  texts := [
    (29, b!"[1999-01-08,2001-05-05)", b!"[1999-01-08,2001-05-05)"),
    (32, b!"[1999-01-08,2001-05-05]", b!"[1999-01-08,2001-05-06)"),
    (35, b!"(1999-01-08,2001-05-05]", b!"[1999-01-09,2001-05-06)"),
    (38, b!"[,2001-05-05)", b!"(,2001-05-05)"),
    (41, b!"[1999-01-08,]", b!"[1999-01-08,)"),
    (44, b!"[,]", b!"(,)"),
    (50, b!"[1999-01-08,2001-05-05)", b!"[1999-01-08,2001-05-05)"),
    (53, b!"[1999-01-08,2001-05-05]", b!"[1999-01-08,2001-05-06)"),
    (56, b!"(1999-01-08,2001-05-05]", b!"[1999-01-09,2001-05-06)"),
    (59, b!"[,2001-05-05)", b!"(,2001-05-05)"),
    (62, b!"[1999-01-08,]", b!"[1999-01-08,)"),
    (65, b!"[,]", b!"(,)")]

theorem daterange_ok : daterangeFile.ok = true := by decide +kernel

/-- /repo/pgsql/daterangearr_test.go: 4 cases with a valuer and a scanner, 6 texts. -/
def daterangearrFile : File where
  name := "daterangearr_test.go"
  col := arrayOf daterange
  cases := [
    ⟨13, stored (dateRangeArrValue none), fun r => gives (dateRangeArrScan none r) none⟩,
    ⟨14, stored (dateRangeArrValue (some [({ year := 1, month := 1, day := 1, hour := 0, minute := 0, second := 0, nano := 0 }, { year := 1, month := 1, day := 1, hour := 0, minute := 0, second := 0, nano := 0 }), ({ year := 1, month := 1, day := 1, hour := 0, minute := 0, second := 0, nano := 0 }, { year := 1, month := 1, day := 1, hour := 0, minute := 0, second := 0, nano := 0 }), ({ year := 1, month := 1, day := 1, hour := 0, minute := 0, second := 0, nano := 0 }, { year := 1, month := 1, day := 1, hour := 0, minute := 0, second := 0, nano := 0 })])), fun r => gives (dateRangeArrScan none r) (some [({ year := 1, month := 1, day := 1, hour := 0, minute := 0, second := 0, nano := 0 }, { year := 1, month := 1, day := 1, hour := 0, minute := 0, second := 0, nano := 0 }), ({ year := 1, month := 1, day := 1, hour := 0, minute := 0, second := 0, nano := 0 }, { year := 1, month := 1, day := 1, hour := 0, minute := 0, second := 0, nano := 0 }), ({ year := 1, month := 1, day := 1, hour := 0, minute := 0, second := 0, nano := 0 }, { year := 1, month := 1, day := 1, hour := 0, minute := 0, second := 0, nano := 0 })])⟩,
    ⟨17, stored (dateRangeArrValue (some [({ year := 1999, month := 1, day := 8, hour := 0, minute := 0, second := 0, nano := 0 }, { year := 2001, month := 5, day := 5, hour := 0, minute := 0, second := 0, nano := 0 })])), fun r => gives (dateRangeArrScan none r) (some [({ year := 1999, month := 1, day := 8, hour := 0, minute := 0, second := 0, nano := 0 }, { year := 2001, month := 5, day := 5, hour := 0, minute := 0, second := 0, nano := 0 })])⟩,
    ⟨20, stored (dateRangeArrValue (some [({ year := 1, month := 1, day := 1, hour := 0, minute := 0, second := 0, nano := 0 }, { year := 2001, month := 5, day := 5, hour := 0, minute := 0, second := 0, nano := 0 }), ({ year := 1999, month := 1, day := 8, hour := 0, minute := 0, second := 0, nano := 0 }, { year := 1, month := 1, day := 1, hour := 0, minute := 0, second := 0, nano := 0 }), ({ year := 1999, month := 1, day := 8, hour := 0, minute := 0, second := 0, nano := 0 }, { year := 2001, month := 5, day := 5, hour := 0, minute := 0, second := 0, nano := 0 })])), fun r => gives (dateRangeArrScan none r) (some [({ year := 1, month := 1, day := 1, hour := 0, minute := 0, second := 0, nano := 0 }, { year := 2001, month := 5, day := 5, hour := 0, minute := 0, second := 0, nano := 0 }), ({ year := 1999, month := 1, day := 8, hour := 0, minute := 0, second := 0, nano := 0 }, { year := 1, month := 1, day := 1, hour := 0, minute := 0, second := 0, nano := 0 }), ({ year := 1999, month := 1, day := 8, hour := 0, minute := 0, second := 0, nano := 0 }, { year := 2001, month := 5, day := 5, hour := 0, minute := 0, second := 0, nano := 0 })])⟩]
  texts := [
    (33, b!"{\"(,)\",\"(,)\",\"(,)\"}", b!"{\"(,)\",\"(,)\",\"(,)\"}"),
    (36, b!"{\"[1999-01-08,2001-05-05)\"}", b!"{\"[1999-01-08,2001-05-05)\"}"),
    (39, b!"{\"(,2001-05-05)\",\"[1999-01-08,)\",\"[1999-01-08,2001-05-05)\"}", b!"{\"(,2001-05-05)\",\"[1999-01-08,)\",\"[1999-01-08,2001-05-05)\"}"),
    (45, b!"{\"(,)\",\"(,)\",\"(,)\"}", b!"{\"(,)\",\"(,)\",\"(,)\"}"),
    (48, b!"{\"[1999-01-08,2001-05-05)\"}", b!"{\"[1999-01-08,2001-05-05)\"}"),
    (51, b!"{\"(,2001-05-05)\",\"[1999-01-08,)\",\"[1999-01-08,2001-05-05)\"}", b!"{\"(,2001-05-05)\",\"[1999-01-08,)\",\"[1999-01-08,2001-05-05)\"}")]

theorem daterangearr_ok : daterangearrFile.ok = true := by decide +kernel

/-- /repo/pgsql/float4arr_test.go: 12 cases with a valuer and a scanner, 10 texts. -/
def float4arrFile : File where
  name := "float4arr_test.go"
  col := arrayOf (float single)
  cases := [
    ⟨12, stored (float4FromFloat32 none), fun r => gives (float4ToFloat32 none r) none⟩,
    ⟨13, stored (float4FromFloat32 (some [])), fun r => gives (float4ToFloat32 none r) (some [])⟩,
    ⟨14, stored (float4FromFloat32 (some [(.fin false (1 * 2 ^ 1074)), (.fin false 0)])), fun r => gives (float4ToFloat32 none r) (some [(.fin false (1 * 2 ^ 1074)), (.fin false 0)])⟩,
    ⟨15, stored (float4FromFloat32 (some [(.fin false (13170115 * 2 ^ 1052)), (.fin false (5033165 * 2 ^ 1049))])), fun r => gives (float4ToFloat32 none r) (some [(.fin false (13170115 * 2 ^ 1052)), (.fin false (5033165 * 2 ^ 1049))])⟩,
    ⟨18, stored (float4FromFloat32 (some [(.fin false (7130317 * 2 ^ 1053)), (.fin false (11744051 * 2 ^ 1053)), (.fin false (823549 * 2 ^ 1056))])), fun r => gives (float4ToFloat32 none r) (some [(.fin false (7130317 * 2 ^ 1053)), (.fin false (11744051 * 2 ^ 1053)), (.fin false (823549 * 2 ^ 1056))])⟩,
    ⟨21, stored (float4FromFloat32 (some [(.fin false (5153961 * 2 ^ 1043)), (.fin false (11744051 * 2 ^ 1051)), (.fin true (731009 * 2 ^ 1061)), (.fin false 0)])), fun r => gives (float4ToFloat32 none r) (some [(.fin false (5153961 * 2 ^ 1043)), (.fin false (11744051 * 2 ^ 1051)), (.fin true (731009 * 2 ^ 1061)), (.fin false 0)])⟩,
    ⟨29, stored (float4FromFloat64 none), fun r => gives (float4ToFloat64 none r) none⟩,
    ⟨30, stored (float4FromFloat64 (some [])), fun r => gives (float4ToFloat64 none r) (some [])⟩,
    ⟨31, stored (float4FromFloat64 (some [(.fin false (1 * 2 ^ 1074)), (.fin false 0)])), fun r => gives (float4ToFloat64 none r) (some [(.fin false (1 * 2 ^ 1074)), (.fin false 0)])⟩,
    ⟨32, stored (float4FromFloat64 (some [(.fin false (7070651414971679 * 2 ^ 1023)), (.fin false (5404319552844595 * 2 ^ 1019))])), fun r => gives (float4ToFloat64 none r) (some [(.fin false (7070651414971679 * 2 ^ 1023)), (.fin false (5404319552844595 * 2 ^ 1019))])⟩,
    ⟨35, stored (float4FromFloat64 (some [(.fin false (7656119366529843 * 2 ^ 1023)), (.fin false (3152519739159347 * 2 ^ 1025)), (.fin false (3537115888337719 * 2 ^ 1024))])), fun r => gives (float4ToFloat64 none r) (some [(.fin false (7656119366529843 * 2 ^ 1023)), (.fin false (3152519739159347 * 2 ^ 1025)), (.fin false (3537115888337719 * 2 ^ 1024))])⟩,
    ⟨38, stored (float4FromFloat64 (some [(.fin false (5534023222112865 * 2 ^ 1013)), (.fin false (3152519739159347 * 2 ^ 1023)), (.fin true (3139659851160879 * 2 ^ 1029)), (.fin false 0)])), fun r => gives (float4ToFloat64 none r) (some [(.fin false (5534023222112865 * 2 ^ 1013)), (.fin false (3152519739159347 * 2 ^ 1023)), (.fin true (3139659851160879 * 2 ^ 1029)), (.fin false 0)])⟩]
  texts := [
    (44, b!"{}", b!"{}"),
    (45, b!"{1,0}", b!"{1,0}"),
    (46, b!"{3.14,0.15}", b!"{3.14,0.15}"),
    (49, b!"{3.4,5.6,3.14159}", b!"{3.4,5.6,3.14159}"),
    (52, b!"{0.0024,1.4,-89.2345,0.0}", b!"{0.0024,1.4,-89.2345,0}"),
    (58, b!"{}", b!"{}"),
    (59, b!"{1,0}", b!"{1,0}"),
    (60, b!"{3.14,0.15}", b!"{3.14,0.15}"),
    (63, b!"{3.4,5.6,3.14159}", b!"{3.4,5.6,3.14159}"),
    (66, b!"{0.0024,1.4,-89.2345,0.0}", b!"{0.0024,1.4,-89.2345,0}")]

theorem float4arr_ok : float4arrFile.ok = true := by decide +kernel

/-- /repo/pgsql/float8arr_test.go: 12 cases with a valuer and a scanner, 10 texts. -/
def float8arrFile : File where
  name := "float8arr_test.go"
  col := arrayOf (float double)
  cases := [
    ⟨12, stored (float8FromFloat32 none), fun r => gives (float8ToFloat32 none r) none⟩,
    ⟨13, stored (float8FromFloat32 (some [])), fun r => gives (float8ToFloat32 none r) (some [])⟩,
    ⟨14, stored (float8FromFloat32 (some [(.fin false (1 * 2 ^ 1074)), (.fin false 0)])), fun r => gives (float8ToFloat32 none r) (some [(.fin false (1 * 2 ^ 1074)), (.fin false 0)])⟩,
    ⟨15, stored (float8FromFloat32 (some [(.fin false (13170115 * 2 ^ 1052)), (.fin false (5033165 * 2 ^ 1049))])), fun r => gives (float8ToFloat32 none r) (some [(.fin false (13170115 * 2 ^ 1052)), (.fin false (5033165 * 2 ^ 1049))])⟩,
    ⟨18, stored (float8FromFloat32 (some [(.fin false (7130317 * 2 ^ 1053)), (.fin false (11744051 * 2 ^ 1053)), (.fin false (823549 * 2 ^ 1056))])), fun r => gives (float8ToFloat32 none r) (some [(.fin false (7130317 * 2 ^ 1053)), (.fin false (11744051 * 2 ^ 1053)), (.fin false (823549 * 2 ^ 1056))])⟩,
    ⟨21, stored (float8FromFloat32 (some [(.fin false (5153961 * 2 ^ 1043)), (.fin false (11744051 * 2 ^ 1051)), (.fin true (731009 * 2 ^ 1061)), (.fin false 0)])), fun r => gives (float8ToFloat32 none r) (some [(.fin false (5153961 * 2 ^ 1043)), (.fin false (11744051 * 2 ^ 1051)), (.fin true (731009 * 2 ^ 1061)), (.fin false 0)])⟩,
    ⟨29, stored (float8FromFloat64 none), fun r => gives (float8ToFloat64 none r) none⟩,
    ⟨30, stored (float8FromFloat64 (some [])), fun r => gives (float8ToFloat64 none r) (some [])⟩,
    ⟨31, stored (float8FromFloat64 (some [(.fin false (1 * 2 ^ 1074)), (.fin false 0)])), fun r => gives (float8ToFloat64 none r) (some [(.fin false (1 * 2 ^ 1074)), (.fin false 0)])⟩,
    ⟨32, stored (float8FromFloat64 (some [(.fin false (7070651414971679 * 2 ^ 1023)), (.fin false (5404319552844595 * 2 ^ 1019))])), fun r => gives (float8ToFloat64 none r) (some [(.fin false (7070651414971679 * 2 ^ 1023)), (.fin false (5404319552844595 * 2 ^ 1019))])⟩,
    ⟨35, stored (float8FromFloat64 (some [(.fin false (7656119366529843 * 2 ^ 1023)), (.fin false (3152519739159347 * 2 ^ 1025)), (.fin false (3537115888337719 * 2 ^ 1024))])), fun r => gives (float8ToFloat64 none r) (some [(.fin false (7656119366529843 * 2 ^ 1023)), (.fin false (3152519739159347 * 2 ^ 1025)), (.fin false (3537115888337719 * 2 ^ 1024))])⟩,
    ⟨38, stored (float8FromFloat64 (some [(.fin false (5534023222112865 * 2 ^ 1013)), (.fin false (3152519739159347 * 2 ^ 1023)), (.fin true (3139659851160879 * 2 ^ 1029)), (.fin false 0)])), fun r => gives (float8ToFloat64 none r) (some [(.fin false (5534023222112865 * 2 ^ 1013)), (.fin false (3152519739159347 * 2 ^ 1023)), (.fin true (3139659851160879 * 2 ^ 1029)), (.fin false 0)])⟩]
  texts := [
    (44, b!"{}", b!"{}"),
    (45, b!"{1,0}", b!"{1,0}"),
    (46, b!"{3.14,0.15}", b!"{3.14,0.15}"),
    (49, b!"{3.4,5.6,3.14159}", b!"{3.4,5.6,3.14159}"),
    (52, b!"{0.0024,1.4,-89.2345,0.0}", b!"{0.0024,1.4,-89.2345,0}"),
    (58, b!"{}", b!"{}"),
    (59, b!"{1,0}", b!"{1,0}"),
    (60, b!"{3.14,0.15}", b!"{3.14,0.15}"),
    (63, b!"{3.4,5.6,3.14159}", b!"{3.4,5.6,3.14159}"),
    (66, b!"{0.0024,1.4,-89.2345,0.0}", b!"{0.0024,1.4,-89.2345,0}")]

theorem float8arr_ok : float8arrFile.ok = true := by decide +kernel

/-- /repo/pgsql/hstore_test.go: 24 cases with a valuer and a scanner, 12 texts. -/
def hstoreFile : File where
  name := "hstore_test.go"
  col := hstore
  cases := [
    ⟨15, stored (hstoreFromMap none), fun r => givesMap (hstoreToMap none r) none⟩,
    ⟨16, stored (hstoreFromMap (some [])), fun r => givesMap (hstoreToMap none r) (some [])⟩,
    ⟨17, stored (hstoreFromMap (some [(b!"a", b!"1"), (b!"b", b!"2")])), fun r => givesMap (hstoreToMap none r) (some [(b!"a", b!"1"), (b!"b", b!"2")])⟩,
    ⟨20, stored (hstoreFromMap (some [(b!"a", b!"'")])), fun r => givesMap (hstoreToMap none r) (some [(b!"a", b!"'")])⟩,
    ⟨23, stored (hstoreFromMap (some [(b!"a", b!"\""), (b!"b", b!"\\")])), fun r => givesMap (hstoreToMap none r) (some [(b!"a", b!"\""), (b!"b", b!"\\")])⟩,
    ⟨26, stored (hstoreFromMap (some [(b!"a", b!"\\\""), (b!"b", b!"\\\\")])), fun r => givesMap (hstoreToMap none r) (some [(b!"a", b!"\\\""), (b!"b", b!"\\\\")])⟩,
    ⟨29, stored (hstoreFromMap (some [(b!"a", b!"\x07"), (b!"b", b!"\x08"), (b!"c", b!"\x09"), (b!"d", b!"\x0a")])), fun r => givesMap (hstoreToMap none r) (some [(b!"a", b!"\x07"), (b!"b", b!"\x08"), (b!"c", b!"\x09"), (b!"d", b!"\x0a")])⟩,
    ⟨32, stored (hstoreFromMap (some [(b!"text", b!"foo' \"bar\", baz \\quux")])), fun r => givesMap (hstoreToMap none r) (some [(b!"text", b!"foo' \"bar\", baz \\quux")])⟩,
    ⟨40, stored (hstoreFromPtrMap none), fun r => givesMap (hstoreToPtrMap none r) none⟩,
    ⟨41, stored (hstoreFromPtrMap (some [])), fun r => givesMap (hstoreToPtrMap none r) (some [])⟩,
    ⟨42, stored (hstoreFromPtrMap (some [(b!"a", (some b!"1")), (b!"b", (some b!"2")), (b!"c", none)])), fun r => givesMap (hstoreToPtrMap none r) (some [(b!"a", (some b!"1")), (b!"b", (some b!"2")), (b!"c", none)])⟩,
    ⟨45, stored (hstoreFromPtrMap (some [(b!"a", (some b!"'"))])), fun r => givesMap (hstoreToPtrMap none r) (some [(b!"a", (some b!"'"))])⟩,
    ⟨48, stored (hstoreFromPtrMap (some [(b!"a", (some b!"\"")), (b!"b", (some b!"\\"))])), fun r => givesMap (hstoreToPtrMap none r) (some [(b!"a", (some b!"\"")), (b!"b", (some b!"\\"))])⟩,
    ⟨51, stored (hstoreFromPtrMap (some [(b!"a", (some b!"\\\"")), (b!"b", (some b!"\\\\"))])), fun r => givesMap (hstoreToPtrMap none r) (some [(b!"a", (some b!"\\\"")), (b!"b", (some b!"\\\\"))])⟩,
    ⟨54, stored (hstoreFromPtrMap (some [(b!"a", (some b!"\x07")), (b!"b", (some b!"\x08")), (b!"c", (some b!"\x09")), (b!"d", (some b!"\x0a"))])), fun r => givesMap (hstoreToPtrMap none r) (some [(b!"a", (some b!"\x07")), (b!"b", (some b!"\x08")), (b!"c", (some b!"\x09")), (b!"d", (some b!"\x0a"))])⟩,
    ⟨57, stored (hstoreFromPtrMap (some [(b!"text", (some b!"foo' \"bar\", baz \\quux"))])), fun r => givesMap (hstoreToPtrMap none r) (some [(b!"text", (some b!"foo' \"bar\", baz \\quux"))])⟩,
    ⟨65, stored (hstoreFromPtrMap none), fun r => givesMap (hstoreToPtrMap none r) none⟩,
    ⟨66, stored (hstoreFromPtrMap (some [])), fun r => givesMap (hstoreToPtrMap none r) (some [])⟩,
    ⟨67, stored (hstoreFromPtrMap (some [(b!"a", (some b!"1")), (b!"b", (some b!"2")), (b!"c", none)])), fun r => givesMap (hstoreToPtrMap none r) (some [(b!"a", (some b!"1")), (b!"b", (some b!"2")), (b!"c", none)])⟩,
    ⟨70, stored (hstoreFromPtrMap (some [(b!"a", (some b!"'"))])), fun r => givesMap (hstoreToPtrMap none r) (some [(b!"a", (some b!"'"))])⟩,
    ⟨73, stored (hstoreFromPtrMap (some [(b!"a", (some b!"\"")), (b!"b", (some b!"\\"))])), fun r => givesMap (hstoreToPtrMap none r) (some [(b!"a", (some b!"\"")), (b!"b", (some b!"\\"))])⟩,
    ⟨76, stored (hstoreFromPtrMap (some [(b!"a", (some b!"\\\"")), (b!"b", (some b!"\\\\"))])), fun r => givesMap (hstoreToPtrMap none r) (some [(b!"a", (some b!"\\\"")), (b!"b", (some b!"\\\\"))])⟩,
    ⟨79, stored (hstoreFromPtrMap (some [(b!"a", (some b!"\x07")), (b!"b", (some b!"\x08")), (b!"c", (some b!"\x09")), (b!"d", (some b!"\x0a"))])), fun r => givesMap (hstoreToPtrMap none r) (some [(b!"a", (some b!"\x07")), (b!"b", (some b!"\x08")), (b!"c", (some b!"\x09")), (b!"d", (some b!"\x0a"))])⟩,
    ⟨84, stored (hstoreFromPtrMap (some [(b!"text", (some b!"foo' \"bar\", baz \\quux"))])), fun r => givesMap (hstoreToPtrMap none r) (some [(b!"text", (some b!"foo' \"bar\", baz \\quux"))])⟩]
  texts := [
    (90, b!"", b!""),
    (91, b!"\"a\"=>\"1\"", b!"\"a\"=>\"1\""),
    (94, b!"\"a\"=>\"1\", \"b\"=>\"2\"", b!"\"a\"=>\"1\", \"b\"=>\"2\""),
    (97, b!"\"text\"=>\"foo' \\\"bar\\\", baz \\\\quux\"", b!"\"text\"=>\"foo' \\\"bar\\\", baz \\\\quux\""),
    (100, b!"\"a\"=>\"1\", \"b\"=>NULL,\"c\"=>NULL", b!"\"a\"=>\"1\", \"b\"=>NULL, \"c\"=>NULL"),
    (103, b!"\"a\"=>\"1\", \"b\"=>\"\\\\\\\"\",\"c\"=>\"\\\\\\\\\\\\\\\\\"", b!"\"a\"=>\"1\", \"b\"=>\"\\\\\\\"\", \"c\"=>\"\\\\\\\\\\\\\\\\\""),
    (109, b!"", b!""),
    (110, b!"\"a\"=>\"1\"", b!"\"a\"=>\"1\""),
    (113, b!"\"a\"=>\"1\", \"b\"=>\"2\",\"c\"=>\"3\"", b!"\"a\"=>\"1\", \"b\"=>\"2\", \"c\"=>\"3\""),
    (116, b!"\"a\"=>\"1\", \"b\"=>NULL,\"c\"=>NULL", b!"\"a\"=>\"1\", \"b\"=>NULL, \"c\"=>NULL"),
    (119, b!"\"a\"=>\"1\", \"b\"=>\"\\\\\\\"\",\"c\"=>\"\\\\\\\\\\\\\\\\\"", b!"\"a\"=>\"1\", \"b\"=>\"\\\\\\\"\", \"c\"=>\"\\\\\\\\\\\\\\\\\""),
    (122, b!"\"text\"=>\"foo' \\\"bar\\\", baz \\\\quux\"", b!"\"text\"=>\"foo' \\\"bar\\\", baz \\\\quux\"")]

theorem hstore_ok : hstoreFile.ok = true := by decide +kernel

/-- /repo/pgsql/hstorearr_test.go: 33 cases with a valuer and a scanner, 10 texts. -/
def hstorearrFile : File where
  name := "hstorearr_test.go"
  col := arrayOf hstore
  cases := [
    ⟨15, stored (hstoreArrFromMaps none), fun r => givesMaps (hstoreArrToMaps none r) none⟩,
    ⟨16, stored (hstoreArrFromMaps (some [])), fun r => givesMaps (hstoreArrToMaps none r) (some [])⟩,
    ⟨17, stored (hstoreArrFromMaps (some [(some [(b!"a", b!"1")])])), fun r => givesMaps (hstoreArrToMaps none r) (some [(some [(b!"a", b!"1")])])⟩,
    ⟨20, stored (hstoreArrFromMaps (some [(some [(b!"a", b!"1"), (b!"b", b!"2"), (b!"c", b!"3")])])), fun r => givesMaps (hstoreArrToMaps none r) (some [(some [(b!"a", b!"1"), (b!"b", b!"2"), (b!"c", b!"3")])])⟩,
    ⟨23, stored (hstoreArrFromMaps (some [(some [(b!"a", b!"1")]), (some [(b!"b", b!"2")]), (some [(b!"c", b!"3")])])), fun r => givesMaps (hstoreArrToMaps none r) (some [(some [(b!"a", b!"1")]), (some [(b!"b", b!"2")]), (some [(b!"c", b!"3")])])⟩,
    ⟨26, stored (hstoreArrFromMaps (some [(some [(b!"a", b!"1")]), none, (some [(b!"c", b!"")])])), fun r => givesMaps (hstoreArrToMaps none r) (some [(some [(b!"a", b!"1")]), none, (some [(b!"c", b!"")])])⟩,
    ⟨29, stored (hstoreArrFromMaps (some [(some [(b!"a", b!"'")])])), fun r => givesMaps (hstoreArrToMaps none r) (some [(some [(b!"a", b!"'")])])⟩,
    ⟨32, stored (hstoreArrFromMaps (some [(some [(b!"a", b!"foo\" bar")]), (some [(b!"b", b!"\\")])])), fun r => givesMaps (hstoreArrToMaps none r) (some [(some [(b!"a", b!"foo\" bar")]), (some [(b!"b", b!"\\")])])⟩,
    ⟨35, stored (hstoreArrFromMaps (some [(some [(b!"a", b!"foo\\\" bar")]), (some [(b!"b", b!"\\\\")])])), fun r => givesMaps (hstoreArrToMaps none r) (some [(some [(b!"a", b!"foo\\\" bar")]), (some [(b!"b", b!"\\\\")])])⟩,
    ⟨38, stored (hstoreArrFromMaps (some [(some [(b!"a", b!"\x09")])])), fun r => givesMaps (hstoreArrToMaps none r) (some [(some [(b!"a", b!"\x09")])])⟩,
    ⟨41, stored (hstoreArrFromMaps (some [(some [(b!"a", b!"\x07")]), (some [(b!"b", b!"\x08")])])), fun r => givesMaps (hstoreArrToMaps none r) (some [(some [(b!"a", b!"\x07")]), (some [(b!"b", b!"\x08")])])⟩,
    ⟨49, stored (hstoreArrFromPtrMaps none), fun r => givesMaps (hstoreArrToPtrMaps none r) none⟩,
    ⟨50, stored (hstoreArrFromPtrMaps (some [])), fun r => givesMaps (hstoreArrToPtrMaps none r) (some [])⟩,
    ⟨51, stored (hstoreArrFromPtrMaps (some [(some [(b!"a", (some b!"1"))])])), fun r => givesMaps (hstoreArrToPtrMaps none r) (some [(some [(b!"a", (some b!"1"))])])⟩,
    ⟨54, stored (hstoreArrFromPtrMaps (some [(some [(b!"a", (some b!"1")), (b!"b", (some b!"2")), (b!"c", (some b!"3"))])])), fun r => givesMaps (hstoreArrToPtrMaps none r) (some [(some [(b!"a", (some b!"1")), (b!"b", (some b!"2")), (b!"c", (some b!"3"))])])⟩,
    ⟨57, stored (hstoreArrFromPtrMaps (some [(some [(b!"a", (some b!"1"))]), (some [(b!"b", (some b!"2"))]), (some [(b!"c", (some b!"3"))])])), fun r => givesMaps (hstoreArrToPtrMaps none r) (some [(some [(b!"a", (some b!"1"))]), (some [(b!"b", (some b!"2"))]), (some [(b!"c", (some b!"3"))])])⟩,
    ⟨60, stored (hstoreArrFromPtrMaps (some [(some [(b!"a", (some b!"1"))]), none, (some [(b!"c", none)])])), fun r => givesMaps (hstoreArrToPtrMaps none r) (some [(some [(b!"a", (some b!"1"))]), none, (some [(b!"c", none)])])⟩,
    ⟨63, stored (hstoreArrFromPtrMaps (some [(some [(b!"a", (some b!"'"))])])), fun r => givesMaps (hstoreArrToPtrMaps none r) (some [(some [(b!"a", (some b!"'"))])])⟩,
    ⟨66, stored (hstoreArrFromPtrMaps (some [(some [(b!"a", (some b!"foo\" bar"))]), (some [(b!"b", (some b!"\\"))])])), fun r => givesMaps (hstoreArrToPtrMaps none r) (some [(some [(b!"a", (some b!"foo\" bar"))]), (some [(b!"b", (some b!"\\"))])])⟩,
    ⟨69, stored (hstoreArrFromPtrMaps (some [(some [(b!"a", (some b!"foo\\\" bar"))]), (some [(b!"b", (some b!"\\\\"))])])), fun r => givesMaps (hstoreArrToPtrMaps none r) (some [(some [(b!"a", (some b!"foo\\\" bar"))]), (some [(b!"b", (some b!"\\\\"))])])⟩,
    ⟨72, stored (hstoreArrFromPtrMaps (some [(some [(b!"a", (some b!"\x09"))])])), fun r => givesMaps (hstoreArrToPtrMaps none r) (some [(some [(b!"a", (some b!"\x09"))])])⟩,
    ⟨75, stored (hstoreArrFromPtrMaps (some [(some [(b!"a", (some b!"\x07"))]), (some [(b!"b", (some b!"\x08"))])])), fun r => givesMaps (hstoreArrToPtrMaps none r) (some [(some [(b!"a", (some b!"\x07"))]), (some [(b!"b", (some b!"\x08"))])])⟩,
    ⟨83, stored (hstoreArrFromPtrMaps none), fun r => givesMaps (hstoreArrToPtrMaps none r) none⟩,
    ⟨84, stored (hstoreArrFromPtrMaps (some [])), fun r => givesMaps (hstoreArrToPtrMaps none r) (some [])⟩,
    ⟨85, stored (hstoreArrFromPtrMaps (some [(some [(b!"a", (some b!"1"))])])), fun r => givesMaps (hstoreArrToPtrMaps none r) (some [(some [(b!"a", (some b!"1"))])])⟩,
    ⟨88, stored (hstoreArrFromPtrMaps (some [(some [(b!"a", (some b!"1")), (b!"b", (some b!"2")), (b!"c", (some b!"3"))])])), fun r => givesMaps (hstoreArrToPtrMaps none r) (some [(some [(b!"a", (some b!"1")), (b!"b", (some b!"2")), (b!"c", (some b!"3"))])])⟩,
    ⟨91, stored (hstoreArrFromPtrMaps (some [(some [(b!"a", (some b!"1"))]), (some [(b!"b", (some b!"2"))]), (some [(b!"c", (some b!"3"))])])), fun r => givesMaps (hstoreArrToPtrMaps none r) (some [(some [(b!"a", (some b!"1"))]), (some [(b!"b", (some b!"2"))]), (some [(b!"c", (some b!"3"))])])⟩,
    ⟨94, stored (hstoreArrFromPtrMaps (some [(some [(b!"a", (some b!"1"))]), none, (some [(b!"c", none)])])), fun r => givesMaps (hstoreArrToPtrMaps none r) (some [(some [(b!"a", (some b!"1"))]), none, (some [(b!"c", none)])])⟩,
    ⟨97, stored (hstoreArrFromPtrMaps (some [(some [(b!"a", (some b!"'"))])])), fun r => givesMaps (hstoreArrToPtrMaps none r) (some [(some [(b!"a", (some b!"'"))])])⟩,
    ⟨100, stored (hstoreArrFromPtrMaps (some [(some [(b!"a", (some b!"foo\" bar"))]), (some [(b!"b", (some b!"\\"))])])), fun r => givesMaps (hstoreArrToPtrMaps none r) (some [(some [(b!"a", (some b!"foo\" bar"))]), (some [(b!"b", (some b!"\\"))])])⟩,
    ⟨103, stored (hstoreArrFromPtrMaps (some [(some [(b!"a", (some b!"foo\\\" bar"))]), (some [(b!"b", (some b!"\\\\"))])])), fun r => givesMaps (hstoreArrToPtrMaps none r) (some [(some [(b!"a", (some b!"foo\\\" bar"))]), (some [(b!"b", (some b!"\\\\"))])])⟩,
    ⟨106, stored (hstoreArrFromPtrMaps (some [(some [(b!"a", (some b!"\x09"))])])), fun r => givesMaps (hstoreArrToPtrMaps none r) (some [(some [(b!"a", (some b!"\x09"))])])⟩,
    ⟨109, stored (hstoreArrFromPtrMaps (some [(some [(b!"a", (some b!"\x07"))]), (some [(b!"b", (some b!"\x08"))])])), fun r => givesMaps (hstoreArrToPtrMaps none r) (some [(some [(b!"a", (some b!"\x07"))]), (some [(b!"b", (some b!"\x08"))])])⟩]
  texts := [
    (115, b!"{}", b!"{}"),
    (116, b!"{\"\\\"a\\\"=>\\\"1\\\", \\\"b\\\"=>\\\"2\\\"\"}", b!"{\"\\\"a\\\"=>\\\"1\\\", \\\"b\\\"=>\\\"2\\\"\"}"),
    (119, b!"{\"\\\"text\\\"=>\\\"foo' \\\\\\\"bar\\\\\\\", baz \\\\\\\\quux\\\"\"}", b!"{\"\\\"text\\\"=>\\\"foo' \\\\\\\"bar\\\\\\\", baz \\\\\\\\quux\\\"\"}"),
    (122, b!"{\"\\\"a\\\"=>\\\"1\\\", \\\"b\\\"=>NULL\",NULL}", b!"{\"\\\"a\\\"=>\\\"1\\\", \\\"b\\\"=>NULL\",NULL}"),
    (125, b!"{\"\\\"a\\\"=>\\\"1\\\", \\\"b\\\"=>\\\"\\\\\\\"\\\", \\\"c\\\"=>\\\"\\\\\\\\\\\\\\\\\\\"\"}", b!"{\"\\\"a\\\"=>\\\"1\\\", \\\"b\\\"=>\\\"\\\\\\\"\\\", \\\"c\\\"=>\\\"\\\\\\\\\\\\\\\\\\\"\"}"),
    (131, b!"{}", b!"{}"),
    (132, b!"{\"\\\"a\\\"=>\\\"1\\\", \\\"b\\\"=>\\\"2\\\"\"}", b!"{\"\\\"a\\\"=>\\\"1\\\", \\\"b\\\"=>\\\"2\\\"\"}"),
    (135, b!"{\"\\\"text\\\"=>\\\"foo' \\\\\\\"bar\\\\\\\", baz \\\\\\\\quux\\\"\"}", b!"{\"\\\"text\\\"=>\\\"foo' \\\\\\\"bar\\\\\\\", baz \\\\\\\\quux\\\"\"}"),
    (138, b!"{\"\\\"a\\\"=>\\\"1\\\", \\\"b\\\"=>NULL\",NULL}", b!"{\"\\\"a\\\"=>\\\"1\\\", \\\"b\\\"=>NULL\",NULL}"),
    (141, b!"{\"\\\"a\\\"=>\\\"1\\\", \\\"b\\\"=>\\\"\\\\\\\"\\\", \\\"c\\\"=>\\\"\\\\\\\\\\\\\\\\\\\"\"}", b!"{\"\\\"a\\\"=>\\\"1\\\", \\\"b\\\"=>\\\"\\\\\\\"\\\", \\\"c\\\"=>\\\"\\\\\\\\\\\\\\\\\\\"\"}")]

theorem hstorearr_ok : hstorearrFile.ok = true := by decide +kernel

end Verif.Conform.Codec
