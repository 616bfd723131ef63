import Verif.Pgsql.Ints
/-
What the scanners of package `pgsql` do for SQL NULL: the `data == nil` branch of every `Scan` method
(or what takes its place), as a table of all 230 of them.
-/
namespace Verif.Pgsql

open Verif

/-- What a driver hands to `Scan`. -/
inductive Src where
  | bytes (b : Bytes)
  | str (b : Bytes)
  | null
  | time (t : Int)
  | other (v : Int)
deriving Repr, DecidableEq

/-- `srcbytes` (convert_util.go:19-29); never an error. -/
def srcbytes : Src → Option Bytes
  | .bytes b => some b
  | .str s => some s
  | .null => none
  | _ => none

/-- The statements run for NULL. -/
inductive OnNull where
  /-- `*v.val = nil; return nil` -/
  | assignNil
  /-- `v.val = nil; return nil`: assigns the pointer in the method's copy of the receiver -/
  | assignCopy
  /-- `return nil`, or no case for nil -/
  | leave
  /-- `*v.val = src` -/
  | assignSrc
  /-- `*v.val = time.Time{}`, `*v.val = ""` -/
  | assignZero
deriving Repr, DecidableEq

/-- The destination after these statements; `zero` is the zero value of its type, which is nil for
slices, maps and interfaces. -/
def OnNull.run {δ : Type} (zero : δ) : OnNull → δ → δ
  | .assignNil, _ => zero
  | .assignCopy, dest => dest
  | .leave, dest => dest
  | .assignSrc, _ => zero
  | .assignZero, _ => zero

structure ScanRow where
  name : String
  file : String
  line : Nat
  onNull : OnNull
deriving Repr, DecidableEq

/-- All `Scan` methods. -/
def scanRows : List ScanRow := [
  ⟨"anyToEmptyInterface", "any.go", 17, .assignSrc⟩,
  ⟨"bitArrayToBoolSlice", "bitarr.go", 136, .assignNil⟩,
  ⟨"bitArrayToUint8Slice", "bitarr.go", 163, .assignNil⟩,
  ⟨"bitArrayToUintSlice", "bitarr.go", 190, .assignNil⟩,
  ⟨"boolArrayToBoolSlice", "boolarr.go", 51, .assignNil⟩,
  ⟨"boxToFloat64Array2Array2", "box.go", 43, .leave⟩,
  ⟨"boxArrayToFloat64Array2Array2Slice", "boxarr.go", 54, .assignNil⟩,
  ⟨"byteaArrayToByteSliceSlice", "byteaarr.go", 61, .assignNil⟩,
  ⟨"byteaArrayToStringSlice", "byteaarr.go", 123, .assignNil⟩,
  ⟨"charToByte", "char.go", 41, .leave⟩,
  ⟨"charToRune", "char.go", 67, .leave⟩,
  ⟨"charArrayToString", "chararr.go", 92, .leave⟩,
  ⟨"charArrayToByteSlice", "chararr.go", 142, .assignNil⟩,
  ⟨"charArrayToRuneSlice", "chararr.go", 201, .assignNil⟩,
  ⟨"charArrayToStringSlice", "chararr.go", 261, .assignNil⟩,
  ⟨"cidrToIPNet", "cidr.go", 35, .leave⟩,
  ⟨"cidrArrayToIPNetSlice", "cidrarr.go", 45, .assignNil⟩,
  ⟨"dateToTime", "date.go", 27, .assignZero⟩,
  ⟨"dateToString", "date.go", 40, .assignZero⟩,
  ⟨"dateToByteSlice", "date.go", 53, .assignNil⟩,
  ⟨"dateArrayToTimeSlice", "datearr.go", 45, .assignNil⟩,
  ⟨"dateRangeToTimeArray2", "daterange.go", 70, .leave⟩,
  ⟨"dateRangeArrayToTimeArray2Slice", "daterangearr.go", 57, .assignCopy⟩,
  ⟨"float4ArrayToFloat32Slice", "float4arr.go", 55, .assignNil⟩,
  ⟨"float4ArrayToFloat64Slice", "float4arr.go", 104, .assignNil⟩,
  ⟨"float8ArrayToFloat32Slice", "float8arr.go", 55, .assignNil⟩,
  ⟨"float8ArrayToFloat64Slice", "float8arr.go", 104, .assignNil⟩,
  ⟨"hstoreToStringMap", "hstore.go", 66, .leave⟩,
  ⟨"hstoreToStringPtrMap", "hstore.go", 120, .leave⟩,
  ⟨"hstoreToNullStringMap", "hstore.go", 175, .leave⟩,
  ⟨"hstoreArrayToStringMapSlice", "hstorearr.go", 96, .leave⟩,
  ⟨"hstoreArrayToStringPtrMapSlice", "hstorearr.go", 199, .leave⟩,
  ⟨"hstoreArrayToNullStringMapSlice", "hstorearr.go", 303, .leave⟩,
  ⟨"inetToIPNet", "inet.go", 44, .leave⟩,
  ⟨"inetToIP", "inet.go", 78, .leave⟩,
  ⟨"inetArrayToIPNetSlice", "inetarr.go", 55, .assignNil⟩,
  ⟨"inetArrayToIPSlice", "inetarr.go", 104, .assignNil⟩,
  ⟨"int2ArrayToIntSlice", "int2arr.go", 155, .assignNil⟩,
  ⟨"int2ArrayToInt8Slice", "int2arr.go", 204, .assignNil⟩,
  ⟨"int2ArrayToInt16Slice", "int2arr.go", 253, .assignNil⟩,
  ⟨"int2ArrayToInt32Slice", "int2arr.go", 302, .assignNil⟩,
  ⟨"int2ArrayToInt64Slice", "int2arr.go", 351, .assignNil⟩,
  ⟨"int2ArrayToUintSlice", "int2arr.go", 402, .assignNil⟩,
  ⟨"int2ArrayToUint8Slice", "int2arr.go", 451, .assignNil⟩,
  ⟨"int2ArrayToUint16Slice", "int2arr.go", 500, .assignNil⟩,
  ⟨"int2ArrayToUint32Slice", "int2arr.go", 549, .assignNil⟩,
  ⟨"int2ArrayToUint64Slice", "int2arr.go", 598, .assignNil⟩,
  ⟨"int2ArrayToFloat32Slice", "int2arr.go", 647, .assignNil⟩,
  ⟨"int2ArrayToFloat64Slice", "int2arr.go", 696, .assignNil⟩,
  ⟨"int2VectorToIntSlice", "int2vector.go", 155, .assignNil⟩,
  ⟨"int2VectorToInt8Slice", "int2vector.go", 204, .assignNil⟩,
  ⟨"int2VectorToInt16Slice", "int2vector.go", 253, .assignNil⟩,
  ⟨"int2VectorToInt32Slice", "int2vector.go", 302, .assignNil⟩,
  ⟨"int2VectorToInt64Slice", "int2vector.go", 351, .assignNil⟩,
  ⟨"int2VectorToUintSlice", "int2vector.go", 400, .assignNil⟩,
  ⟨"int2VectorToUint8Slice", "int2vector.go", 449, .assignNil⟩,
  ⟨"int2VectorToUint16Slice", "int2vector.go", 498, .assignNil⟩,
  ⟨"int2VectorToUint32Slice", "int2vector.go", 547, .assignNil⟩,
  ⟨"int2VectorToUint64Slice", "int2vector.go", 596, .assignNil⟩,
  ⟨"int2VectorToFloat32Slice", "int2vector.go", 645, .assignNil⟩,
  ⟨"int2VectorToFloat64Slice", "int2vector.go", 694, .assignNil⟩,
  ⟨"int2VectorArrayToIntSliceSlice", "int2vectorarr.go", 160, .assignNil⟩,
  ⟨"int2VectorArrayToInt8SliceSlice", "int2vectorarr.go", 218, .assignNil⟩,
  ⟨"int2VectorArrayToInt16SliceSlice", "int2vectorarr.go", 276, .assignNil⟩,
  ⟨"int2VectorArrayToInt32SliceSlice", "int2vectorarr.go", 334, .assignNil⟩,
  ⟨"int2VectorArrayToInt64SliceSlice", "int2vectorarr.go", 392, .assignNil⟩,
  ⟨"int2VectorArrayToUintSliceSlice", "int2vectorarr.go", 450, .assignNil⟩,
  ⟨"int2VectorArrayToUint8SliceSlice", "int2vectorarr.go", 508, .assignNil⟩,
  ⟨"int2VectorArrayToUint16SliceSlice", "int2vectorarr.go", 566, .assignNil⟩,
  ⟨"int2VectorArrayToUint32SliceSlice", "int2vectorarr.go", 624, .assignNil⟩,
  ⟨"int2VectorArrayToUint64SliceSlice", "int2vectorarr.go", 682, .assignNil⟩,
  ⟨"int2VectorArrayToFloat32SliceSlice", "int2vectorarr.go", 740, .assignNil⟩,
  ⟨"int2VectorArrayToFloat64SliceSlice", "int2vectorarr.go", 798, .assignNil⟩,
  ⟨"int4ArrayToIntSlice", "int4arr.go", 155, .assignNil⟩,
  ⟨"int4ArrayToInt8Slice", "int4arr.go", 204, .assignNil⟩,
  ⟨"int4ArrayToInt16Slice", "int4arr.go", 253, .assignNil⟩,
  ⟨"int4ArrayToInt32Slice", "int4arr.go", 302, .assignNil⟩,
  ⟨"int4ArrayToInt64Slice", "int4arr.go", 351, .assignNil⟩,
  ⟨"int4ArrayToUintSlice", "int4arr.go", 402, .assignNil⟩,
  ⟨"int4ArrayToUint8Slice", "int4arr.go", 451, .assignNil⟩,
  ⟨"int4ArrayToUint16Slice", "int4arr.go", 500, .assignNil⟩,
  ⟨"int4ArrayToUint32Slice", "int4arr.go", 549, .assignNil⟩,
  ⟨"int4ArrayToUint64Slice", "int4arr.go", 598, .assignNil⟩,
  ⟨"int4ArrayToFloat32Slice", "int4arr.go", 647, .assignNil⟩,
  ⟨"int4ArrayToFloat64Slice", "int4arr.go", 696, .assignNil⟩,
  ⟨"int4RangeToIntArray2", "int4range.go", 146, .leave⟩,
  ⟨"int4RangeToInt8Array2", "int4range.go", 189, .leave⟩,
  ⟨"int4RangeToInt16Array2", "int4range.go", 232, .leave⟩,
  ⟨"int4RangeToInt32Array2", "int4range.go", 275, .leave⟩,
  ⟨"int4RangeToInt64Array2", "int4range.go", 318, .leave⟩,
  ⟨"int4RangeToUintArray2", "int4range.go", 361, .leave⟩,
  ⟨"int4RangeToUint8Array2", "int4range.go", 404, .leave⟩,
  ⟨"int4RangeToUint16Array2", "int4range.go", 447, .leave⟩,
  ⟨"int4RangeToUint32Array2", "int4range.go", 490, .leave⟩,
  ⟨"int4RangeToUint64Array2", "int4range.go", 533, .leave⟩,
  ⟨"int4RangeToFloat32Array2", "int4range.go", 576, .leave⟩,
  ⟨"int4RangeToFloat64Array2", "int4range.go", 619, .leave⟩,
  ⟨"int4RangeArrayToIntArray2Slice", "int4rangearr.go", 158, .assignCopy⟩,
  ⟨"int4RangeArrayToInt8Array2Slice", "int4rangearr.go", 221, .assignCopy⟩,
  ⟨"int4RangeArrayToInt16Array2Slice", "int4rangearr.go", 284, .assignCopy⟩,
  ⟨"int4RangeArrayToInt32Array2Slice", "int4rangearr.go", 347, .assignCopy⟩,
  ⟨"int4RangeArrayToInt64Array2Slice", "int4rangearr.go", 410, .assignCopy⟩,
  ⟨"int4RangeArrayToUintArray2Slice", "int4rangearr.go", 473, .assignCopy⟩,
  ⟨"int4RangeArrayToUint8Array2Slice", "int4rangearr.go", 536, .assignCopy⟩,
  ⟨"int4RangeArrayToUint16Array2Slice", "int4rangearr.go", 599, .assignCopy⟩,
  ⟨"int4RangeArrayToUint32Array2Slice", "int4rangearr.go", 662, .assignCopy⟩,
  ⟨"int4RangeArrayToUint64Array2Slice", "int4rangearr.go", 725, .assignCopy⟩,
  ⟨"int4RangeArrayToFloat32Array2Slice", "int4rangearr.go", 788, .assignCopy⟩,
  ⟨"int4RangeArrayToFloat64Array2Slice", "int4rangearr.go", 851, .assignCopy⟩,
  ⟨"int8ArrayToIntSlice", "int8arr.go", 155, .assignNil⟩,
  ⟨"int8ArrayToInt8Slice", "int8arr.go", 204, .assignNil⟩,
  ⟨"int8ArrayToInt16Slice", "int8arr.go", 253, .assignNil⟩,
  ⟨"int8ArrayToInt32Slice", "int8arr.go", 302, .assignNil⟩,
  ⟨"int8ArrayToInt64Slice", "int8arr.go", 351, .assignNil⟩,
  ⟨"int8ArrayToUintSlice", "int8arr.go", 400, .assignNil⟩,
  ⟨"int8ArrayToUint8Slice", "int8arr.go", 449, .assignNil⟩,
  ⟨"int8ArrayToUint16Slice", "int8arr.go", 498, .assignNil⟩,
  ⟨"int8ArrayToUint32Slice", "int8arr.go", 547, .assignNil⟩,
  ⟨"int8ArrayToUint64Slice", "int8arr.go", 596, .assignNil⟩,
  ⟨"int8ArrayToFloat32Slice", "int8arr.go", 645, .assignNil⟩,
  ⟨"int8ArrayToFloat64Slice", "int8arr.go", 694, .assignNil⟩,
  ⟨"int8RangeToIntArray2", "int8range.go", 146, .leave⟩,
  ⟨"int8RangeToInt8Array2", "int8range.go", 189, .leave⟩,
  ⟨"int8RangeToInt16Array2", "int8range.go", 232, .leave⟩,
  ⟨"int8RangeToInt32Array2", "int8range.go", 275, .leave⟩,
  ⟨"int8RangeToInt64Array2", "int8range.go", 318, .leave⟩,
  ⟨"int8RangeToUintArray2", "int8range.go", 361, .leave⟩,
  ⟨"int8RangeToUint8Array2", "int8range.go", 404, .leave⟩,
  ⟨"int8RangeToUint16Array2", "int8range.go", 447, .leave⟩,
  ⟨"int8RangeToUint32Array2", "int8range.go", 490, .leave⟩,
  ⟨"int8RangeToUint64Array2", "int8range.go", 533, .leave⟩,
  ⟨"int8RangeToFloat32Array2", "int8range.go", 576, .leave⟩,
  ⟨"int8RangeToFloat64Array2", "int8range.go", 619, .leave⟩,
  ⟨"int8RangeArrayToIntArray2Slice", "int8rangearr.go", 158, .assignCopy⟩,
  ⟨"int8RangeArrayToInt8Array2Slice", "int8rangearr.go", 221, .assignCopy⟩,
  ⟨"int8RangeArrayToInt16Array2Slice", "int8rangearr.go", 284, .assignCopy⟩,
  ⟨"int8RangeArrayToInt32Array2Slice", "int8rangearr.go", 347, .assignCopy⟩,
  ⟨"int8RangeArrayToInt64Array2Slice", "int8rangearr.go", 410, .assignCopy⟩,
  ⟨"int8RangeArrayToUintArray2Slice", "int8rangearr.go", 473, .assignCopy⟩,
  ⟨"int8RangeArrayToUint8Array2Slice", "int8rangearr.go", 536, .assignCopy⟩,
  ⟨"int8RangeArrayToUint16Array2Slice", "int8rangearr.go", 599, .assignCopy⟩,
  ⟨"int8RangeArrayToUint32Array2Slice", "int8rangearr.go", 662, .assignCopy⟩,
  ⟨"int8RangeArrayToUint64Array2Slice", "int8rangearr.go", 725, .assignCopy⟩,
  ⟨"int8RangeArrayToFloat32Array2Slice", "int8rangearr.go", 788, .assignCopy⟩,
  ⟨"int8RangeArrayToFloat64Array2Slice", "int8rangearr.go", 851, .assignCopy⟩,
  ⟨"jsontype", "json.go", 30, .leave⟩,
  ⟨"jsonArrayToByteSliceSlice", "jsonarr.go", 49, .assignNil⟩,
  ⟨"lineToFloat64Array3", "line.go", 40, .leave⟩,
  ⟨"lineArrayToFloat64Array3Slice", "linearr.go", 55, .leave⟩,
  ⟨"lsegToFloat64Array2Array2", "lseg.go", 42, .leave⟩,
  ⟨"lsegArrayToFloat64Array2Array2Slice", "lsegarr.go", 57, .leave⟩,
  ⟨"macAddrToHardwareAddr", "macaddr.go", 34, .leave⟩,
  ⟨"macAddrArrayToHardwareAddrSlice", "macaddrarr.go", 45, .assignNil⟩,
  ⟨"moneyToInt64", "money.go", 33, .leave⟩,
  ⟨"moneyArrayToInt64Slice", "moneyarr.go", 51, .assignNil⟩,
  ⟨"numericArrayToIntSlice", "numericarr.go", 155, .assignNil⟩,
  ⟨"numericArrayToInt8Slice", "numericarr.go", 204, .assignNil⟩,
  ⟨"numericArrayToInt16Slice", "numericarr.go", 253, .assignNil⟩,
  ⟨"numericArrayToInt32Slice", "numericarr.go", 302, .assignNil⟩,
  ⟨"numericArrayToInt64Slice", "numericarr.go", 351, .assignNil⟩,
  ⟨"numericArrayToUintSlice", "numericarr.go", 402, .assignNil⟩,
  ⟨"numericArrayToUint8Slice", "numericarr.go", 451, .assignNil⟩,
  ⟨"numericArrayToUint16Slice", "numericarr.go", 500, .assignNil⟩,
  ⟨"numericArrayToUint32Slice", "numericarr.go", 549, .assignNil⟩,
  ⟨"numericArrayToUint64Slice", "numericarr.go", 598, .assignNil⟩,
  ⟨"numericArrayToFloat32Slice", "numericarr.go", 647, .assignNil⟩,
  ⟨"numericArrayToFloat64Slice", "numericarr.go", 696, .assignNil⟩,
  ⟨"numRangeToIntArray2", "numrange.go", 146, .leave⟩,
  ⟨"numRangeToInt8Array2", "numrange.go", 189, .leave⟩,
  ⟨"numRangeToInt16Array2", "numrange.go", 232, .leave⟩,
  ⟨"numRangeToInt32Array2", "numrange.go", 275, .leave⟩,
  ⟨"numRangeToInt64Array2", "numrange.go", 318, .leave⟩,
  ⟨"numRangeToUintArray2", "numrange.go", 361, .leave⟩,
  ⟨"numRangeToUint8Array2", "numrange.go", 404, .leave⟩,
  ⟨"numRangeToUint16Array2", "numrange.go", 447, .leave⟩,
  ⟨"numRangeToUint32Array2", "numrange.go", 490, .leave⟩,
  ⟨"numRangeToUint64Array2", "numrange.go", 533, .leave⟩,
  ⟨"numRangeToFloat32Array2", "numrange.go", 576, .leave⟩,
  ⟨"numRangeToFloat64Array2", "numrange.go", 619, .leave⟩,
  ⟨"numRangeArrayToIntArray2Slice", "numrangearr.go", 158, .assignCopy⟩,
  ⟨"numRangeArrayToInt8Array2Slice", "numrangearr.go", 221, .assignCopy⟩,
  ⟨"numRangeArrayToInt16Array2Slice", "numrangearr.go", 284, .assignCopy⟩,
  ⟨"numRangeArrayToInt32Array2Slice", "numrangearr.go", 347, .assignCopy⟩,
  ⟨"numRangeArrayToInt64Array2Slice", "numrangearr.go", 410, .assignCopy⟩,
  ⟨"numRangeArrayToUintArray2Slice", "numrangearr.go", 473, .assignCopy⟩,
  ⟨"numRangeArrayToUint8Array2Slice", "numrangearr.go", 536, .assignCopy⟩,
  ⟨"numRangeArrayToUint16Array2Slice", "numrangearr.go", 599, .assignCopy⟩,
  ⟨"numRangeArrayToUint32Array2Slice", "numrangearr.go", 662, .assignCopy⟩,
  ⟨"numRangeArrayToUint64Array2Slice", "numrangearr.go", 725, .assignCopy⟩,
  ⟨"numRangeArrayToFloat32Array2Slice", "numrangearr.go", 788, .assignCopy⟩,
  ⟨"numRangeArrayToFloat64Array2Slice", "numrangearr.go", 851, .assignCopy⟩,
  ⟨"pathToFloat64Array2Slice", "path.go", 60, .assignNil⟩,
  ⟨"pathArrayToFloat64Array2SliceSlice", "patharr.go", 72, .assignNil⟩,
  ⟨"pointToFloat64Array2", "point.go", 38, .leave⟩,
  ⟨"pointArrayToFloat64Array2Slice", "pointarr.go", 53, .leave⟩,
  ⟨"polygonToFloat64Array2Slice", "polygon.go", 51, .assignNil⟩,
  ⟨"polygonArrayToFloat64Array2SliceSlice", "polygonarr.go", 72, .assignNil⟩,
  ⟨"textArrayToStringSlice", "textarr.go", 52, .assignNil⟩,
  ⟨"textArrayToByteSliceSlice", "textarr.go", 99, .assignNil⟩,
  ⟨"timeToString", "time.go", 22, .leave⟩,
  ⟨"timeToByteSlice", "time.go", 38, .leave⟩,
  ⟨"timeArrayToTimeSlice", "timearr.go", 48, .assignNil⟩,
  ⟨"timestampArrayToTimeSlice", "timestamparr.go", 50, .assignNil⟩,
  ⟨"timestamptzArrayToTimeSlice", "timestamptzarr.go", 51, .assignNil⟩,
  ⟨"timetzToString", "timetz.go", 22, .leave⟩,
  ⟨"timetzToByteSlice", "timetz.go", 38, .leave⟩,
  ⟨"timetzArrayToTimeSlice", "timetzarr.go", 48, .assignNil⟩,
  ⟨"tsQueryArrayToStringSlice", "tsqueryarr.go", 72, .assignNil⟩,
  ⟨"tsQueryArrayToByteSliceSlice", "tsqueryarr.go", 149, .assignNil⟩,
  ⟨"tsRangeToTimeArray2", "tsrange.go", 41, .leave⟩,
  ⟨"tsRangeArrayToTimeArray2Slice", "tsrangearr.go", 53, .assignNil⟩,
  ⟨"tstzRangeToTimeArray2", "tstzrange.go", 41, .leave⟩,
  ⟨"tstzRangeArrayToTimeArray2Slice", "tstzrangearr.go", 53, .assignNil⟩,
  ⟨"tsVectorToStringSlice", "tsvector.go", 63, .assignNil⟩,
  ⟨"tsVectorToByteSliceSlice", "tsvector.go", 117, .assignNil⟩,
  ⟨"tsVectorArrayToStringSliceSlice", "tsvectorarr.go", 103, .assignNil⟩,
  ⟨"tsVectorArrayToByteSliceSliceSlice", "tsvectorarr.go", 209, .assignNil⟩,
  ⟨"uuidToByteArray16", "uuid.go", 30, .leave⟩,
  ⟨"uuidArrayToByteArray16Slice", "uuidarr.go", 73, .assignNil⟩,
  ⟨"uuidArrayToStringSlice", "uuidarr.go", 134, .assignNil⟩,
  ⟨"uuidArrayToByteSliceSlice", "uuidarr.go", 203, .assignNil⟩,
  ⟨"varBitToInt64", "varbit.go", 52, .leave⟩,
  ⟨"varBitToBoolSlice", "varbit.go", 95, .assignNil⟩,
  ⟨"varBitToUint8Slice", "varbit.go", 141, .assignNil⟩,
  ⟨"varBitArrayToBoolSliceSlice", "varbitarr.go", 109, .assignNil⟩,
  ⟨"varBitArrayToUint8SliceSlice", "varbitarr.go", 203, .assignNil⟩,
  ⟨"varBitArrayToStringSlice", "varbitarr.go", 283, .assignNil⟩,
  ⟨"varBitArrayToInt64Slice", "varbitarr.go", 330, .assignNil⟩,
  ⟨"xmltype", "xml.go", 23, .leave⟩,
  ⟨"xmlArrayToByteSliceSlice", "xmlarr.go", 49, .assignNil⟩]

/-- The frame of a `Scan` method using `srcbytes`: `parse` is the part after the NULL case. -/
def ScanRow.scan {δ : Type} (r : ScanRow) (zero : δ) (parse : Bytes → SR δ) (dest : δ) (src : Src) :
    SR δ :=
  match srcbytes src with
  | none => .ok (r.onNull.run zero dest)
  | some b => parse b

/-- `Scan` called for one row after the other with the same destination. -/
def ScanRow.scanAll {δ : Type} (r : ScanRow) (zero : δ) (parse : Bytes → SR δ) (dest : δ) :
    List Src → SR δ
  | [] => .ok dest
  | s :: ss => (r.scan zero parse dest s).bind fun d => r.scanAll zero parse d ss

end Verif.Pgsql
