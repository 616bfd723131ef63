import Verif.Pgsql.Codecs
/-
Model of the text codecs of package `pgsql`, part 3: integers, in the files int2arr.go, int4arr.go,
int8arr.go, numericarr.go (integer element types), int2vector.go, int2vectorarr.go, int4range.go,
int8range.go, numrange.go, int4rangearr.go, int8rangearr.go, numrangearr.go.

In each of these files there is one valuer and one scanner for every Go element type, and inside a
file they differ in nothing but the element type, the parsing function and its bit size.  They are
therefore modelled once per file kind (`Shape`) and the differences are the table `intScans`, one row
per scanner, in file order.  All valuers write the number with `strconv.AppendInt(_, int64(x), 10)` or
`strconv.AppendUint(_, uint64(x), 10)`, i.e. `fmtInt 10`.

Float element types: `int64(f)` in the valuers is modelled by giving the valuers integers;
`float64(i)` in the scanners is left out (no rounding).
-/
namespace Verif.Pgsql

open Verif

/-- Go integer types; `int` and `uint` have 64 bits. -/
inductive GoInt where
  | int | int8 | int16 | int32 | int64 | uint | uint8 | uint16 | uint32 | uint64
deriving Repr, DecidableEq

def GoInt.signed : GoInt → Bool
  | .int | .int8 | .int16 | .int32 | .int64 => true
  | .uint | .uint8 | .uint16 | .uint32 | .uint64 => false

def GoInt.bits : GoInt → Nat
  | .int | .int64 | .uint | .uint64 => 64
  | .int8 | .uint8 => 8
  | .int16 | .uint16 => 16
  | .int32 | .uint32 => 32

/-- The conversion `T(x)` of an integer: it wraps around. -/
def GoInt.conv (t : GoInt) (v : Int) : Int :=
  if t.signed then (v + 2 ^ (t.bits - 1)) % 2 ^ t.bits - 2 ^ (t.bits - 1) else v % 2 ^ t.bits

/-- Go number types that are destinations of the scanners. -/
inductive GoNum where
  | int (t : GoInt) | float32 | float64
deriving Repr, DecidableEq

/-- The conversion in the scanners, without rounding for floats. -/
def GoNum.conv : GoNum → Int → Int
  | .int t, v => t.conv v
  | _, v => v

/-- The PostgreSQL element types. -/
inductive PgInt where
  | int2 | int4 | int8 | numeric
deriving Repr, DecidableEq

/-- The kinds of files. -/
inductive Shape where
  | comma | vector | vectorArr | range | rangeArr
deriving Repr, DecidableEq

/-- A scanner: its Go type name, the PostgreSQL element type, the kind of text, whether it calls
`ParseInt` (or `ParseUint`) and with which bit size, the element type of the destination. -/
structure IntScan where
  name : String
  pg : PgInt
  shape : Shape
  signed : Bool
  bits : Nat
  dest : GoNum
deriving Repr, DecidableEq

/-- All integer scanners. -/
def intScans : List IntScan := [
  ⟨"int2ArrayToIntSlice", .int2, .comma, true, 16, .int .int⟩,
  ⟨"int2ArrayToInt8Slice", .int2, .comma, true, 8, .int .int8⟩,
  ⟨"int2ArrayToInt16Slice", .int2, .comma, true, 16, .int .int16⟩,
  ⟨"int2ArrayToInt32Slice", .int2, .comma, true, 16, .int .int32⟩,
  ⟨"int2ArrayToInt64Slice", .int2, .comma, true, 16, .int .int64⟩,
  ⟨"int2ArrayToUintSlice", .int2, .comma, false, 16, .int .uint⟩,
  ⟨"int2ArrayToUint8Slice", .int2, .comma, false, 8, .int .uint8⟩,
  ⟨"int2ArrayToUint16Slice", .int2, .comma, false, 16, .int .uint16⟩,
  ⟨"int2ArrayToUint32Slice", .int2, .comma, false, 16, .int .uint32⟩,
  ⟨"int2ArrayToUint64Slice", .int2, .comma, false, 16, .int .uint64⟩,
  ⟨"int2ArrayToFloat32Slice", .int2, .comma, true, 16, .float32⟩,
  ⟨"int2ArrayToFloat64Slice", .int2, .comma, true, 16, .float64⟩,
  ⟨"int4ArrayToIntSlice", .int4, .comma, true, 32, .int .int⟩,
  ⟨"int4ArrayToInt8Slice", .int4, .comma, true, 8, .int .int8⟩,
  ⟨"int4ArrayToInt16Slice", .int4, .comma, true, 16, .int .int16⟩,
  ⟨"int4ArrayToInt32Slice", .int4, .comma, true, 32, .int .int32⟩,
  ⟨"int4ArrayToInt64Slice", .int4, .comma, true, 32, .int .int64⟩,
  ⟨"int4ArrayToUintSlice", .int4, .comma, false, 32, .int .uint⟩,
  ⟨"int4ArrayToUint8Slice", .int4, .comma, false, 8, .int .uint8⟩,
  ⟨"int4ArrayToUint16Slice", .int4, .comma, false, 16, .int .uint16⟩,
  ⟨"int4ArrayToUint32Slice", .int4, .comma, false, 32, .int .uint32⟩,
  ⟨"int4ArrayToUint64Slice", .int4, .comma, false, 32, .int .uint64⟩,
  ⟨"int4ArrayToFloat32Slice", .int4, .comma, true, 32, .float32⟩,
  ⟨"int4ArrayToFloat64Slice", .int4, .comma, true, 32, .float64⟩,
  ⟨"int8ArrayToIntSlice", .int8, .comma, true, 64, .int .int⟩,
  ⟨"int8ArrayToInt8Slice", .int8, .comma, true, 8, .int .int8⟩,
  ⟨"int8ArrayToInt16Slice", .int8, .comma, true, 16, .int .int16⟩,
  ⟨"int8ArrayToInt32Slice", .int8, .comma, true, 32, .int .int32⟩,
  ⟨"int8ArrayToInt64Slice", .int8, .comma, true, 64, .int .int64⟩,
  ⟨"int8ArrayToUintSlice", .int8, .comma, false, 32, .int .uint⟩,
  ⟨"int8ArrayToUint8Slice", .int8, .comma, false, 8, .int .uint8⟩,
  ⟨"int8ArrayToUint16Slice", .int8, .comma, false, 16, .int .uint16⟩,
  ⟨"int8ArrayToUint32Slice", .int8, .comma, false, 32, .int .uint32⟩,
  ⟨"int8ArrayToUint64Slice", .int8, .comma, false, 64, .int .uint64⟩,
  ⟨"int8ArrayToFloat32Slice", .int8, .comma, true, 64, .float32⟩,
  ⟨"int8ArrayToFloat64Slice", .int8, .comma, true, 64, .float64⟩,
  ⟨"numericArrayToIntSlice", .numeric, .comma, true, 64, .int .int⟩,
  ⟨"numericArrayToInt8Slice", .numeric, .comma, true, 64, .int .int8⟩,
  ⟨"numericArrayToInt16Slice", .numeric, .comma, true, 64, .int .int16⟩,
  ⟨"numericArrayToInt32Slice", .numeric, .comma, true, 64, .int .int32⟩,
  ⟨"numericArrayToInt64Slice", .numeric, .comma, true, 64, .int .int64⟩,
  ⟨"numericArrayToUintSlice", .numeric, .comma, false, 64, .int .uint⟩,
  ⟨"numericArrayToUint8Slice", .numeric, .comma, false, 64, .int .uint8⟩,
  ⟨"numericArrayToUint16Slice", .numeric, .comma, false, 64, .int .uint16⟩,
  ⟨"numericArrayToUint32Slice", .numeric, .comma, false, 64, .int .uint32⟩,
  ⟨"numericArrayToUint64Slice", .numeric, .comma, false, 64, .int .uint64⟩,
  ⟨"int2VectorToIntSlice", .int2, .vector, true, 16, .int .int⟩,
  ⟨"int2VectorToInt8Slice", .int2, .vector, true, 8, .int .int8⟩,
  ⟨"int2VectorToInt16Slice", .int2, .vector, true, 16, .int .int16⟩,
  ⟨"int2VectorToInt32Slice", .int2, .vector, true, 16, .int .int32⟩,
  ⟨"int2VectorToInt64Slice", .int2, .vector, true, 16, .int .int64⟩,
  ⟨"int2VectorToUintSlice", .int2, .vector, false, 16, .int .uint⟩,
  ⟨"int2VectorToUint8Slice", .int2, .vector, false, 8, .int .uint8⟩,
  ⟨"int2VectorToUint16Slice", .int2, .vector, false, 16, .int .uint16⟩,
  ⟨"int2VectorToUint32Slice", .int2, .vector, false, 16, .int .uint32⟩,
  ⟨"int2VectorToUint64Slice", .int2, .vector, false, 16, .int .uint64⟩,
  ⟨"int2VectorToFloat32Slice", .int2, .vector, true, 16, .float32⟩,
  ⟨"int2VectorToFloat64Slice", .int2, .vector, true, 16, .float64⟩,
  ⟨"int2VectorArrayToIntSliceSlice", .int2, .vectorArr, true, 16, .int .int⟩,
  ⟨"int2VectorArrayToInt8SliceSlice", .int2, .vectorArr, true, 8, .int .int8⟩,
  ⟨"int2VectorArrayToInt16SliceSlice", .int2, .vectorArr, true, 16, .int .int16⟩,
  ⟨"int2VectorArrayToInt32SliceSlice", .int2, .vectorArr, true, 16, .int .int32⟩,
  ⟨"int2VectorArrayToInt64SliceSlice", .int2, .vectorArr, true, 16, .int .int64⟩,
  ⟨"int2VectorArrayToUintSliceSlice", .int2, .vectorArr, false, 16, .int .uint⟩,
  ⟨"int2VectorArrayToUint8SliceSlice", .int2, .vectorArr, false, 8, .int .uint8⟩,
  ⟨"int2VectorArrayToUint16SliceSlice", .int2, .vectorArr, false, 16, .int .uint16⟩,
  ⟨"int2VectorArrayToUint32SliceSlice", .int2, .vectorArr, false, 16, .int .uint32⟩,
  ⟨"int2VectorArrayToUint64SliceSlice", .int2, .vectorArr, false, 16, .int .uint64⟩,
  ⟨"int2VectorArrayToFloat32SliceSlice", .int2, .vectorArr, true, 16, .float32⟩,
  ⟨"int2VectorArrayToFloat64SliceSlice", .int2, .vectorArr, true, 16, .float64⟩,
  ⟨"int4RangeToIntArray2", .int4, .range, true, 32, .int .int⟩,
  ⟨"int4RangeToInt8Array2", .int4, .range, true, 8, .int .int8⟩,
  ⟨"int4RangeToInt16Array2", .int4, .range, true, 16, .int .int16⟩,
  ⟨"int4RangeToInt32Array2", .int4, .range, true, 32, .int .int32⟩,
  ⟨"int4RangeToInt64Array2", .int4, .range, true, 32, .int .int64⟩,
  ⟨"int4RangeToUintArray2", .int4, .range, false, 32, .int .uint⟩,
  ⟨"int4RangeToUint8Array2", .int4, .range, false, 8, .int .uint8⟩,
  ⟨"int4RangeToUint16Array2", .int4, .range, false, 16, .int .uint16⟩,
  ⟨"int4RangeToUint32Array2", .int4, .range, false, 32, .int .uint32⟩,
  ⟨"int4RangeToUint64Array2", .int4, .range, false, 32, .int .uint64⟩,
  ⟨"int4RangeToFloat32Array2", .int4, .range, true, 32, .float32⟩,
  ⟨"int4RangeToFloat64Array2", .int4, .range, true, 32, .float64⟩,
  ⟨"int8RangeToIntArray2", .int8, .range, true, 64, .int .int⟩,
  ⟨"int8RangeToInt8Array2", .int8, .range, true, 8, .int .int8⟩,
  ⟨"int8RangeToInt16Array2", .int8, .range, true, 16, .int .int16⟩,
  ⟨"int8RangeToInt32Array2", .int8, .range, true, 32, .int .int32⟩,
  ⟨"int8RangeToInt64Array2", .int8, .range, true, 64, .int .int64⟩,
  ⟨"int8RangeToUintArray2", .int8, .range, false, 64, .int .uint⟩,
  ⟨"int8RangeToUint8Array2", .int8, .range, false, 8, .int .uint8⟩,
  ⟨"int8RangeToUint16Array2", .int8, .range, false, 16, .int .uint16⟩,
  ⟨"int8RangeToUint32Array2", .int8, .range, false, 32, .int .uint32⟩,
  ⟨"int8RangeToUint64Array2", .int8, .range, false, 64, .int .uint64⟩,
  ⟨"int8RangeToFloat32Array2", .int8, .range, true, 64, .float32⟩,
  ⟨"int8RangeToFloat64Array2", .int8, .range, true, 64, .float64⟩,
  ⟨"numRangeToIntArray2", .numeric, .range, true, 64, .int .int⟩,
  ⟨"numRangeToInt8Array2", .numeric, .range, true, 8, .int .int8⟩,
  ⟨"numRangeToInt16Array2", .numeric, .range, true, 16, .int .int16⟩,
  ⟨"numRangeToInt32Array2", .numeric, .range, true, 32, .int .int32⟩,
  ⟨"numRangeToInt64Array2", .numeric, .range, true, 64, .int .int64⟩,
  ⟨"numRangeToUintArray2", .numeric, .range, false, 64, .int .uint⟩,
  ⟨"numRangeToUint8Array2", .numeric, .range, false, 8, .int .uint8⟩,
  ⟨"numRangeToUint16Array2", .numeric, .range, false, 16, .int .uint16⟩,
  ⟨"numRangeToUint32Array2", .numeric, .range, false, 32, .int .uint32⟩,
  ⟨"numRangeToUint64Array2", .numeric, .range, false, 64, .int .uint64⟩,
  ⟨"numRangeToFloat32Array2", .numeric, .range, true, 64, .float32⟩,
  ⟨"numRangeToFloat64Array2", .numeric, .range, true, 64, .float64⟩,
  ⟨"int4RangeArrayToIntArray2Slice", .int4, .rangeArr, true, 32, .int .int⟩,
  ⟨"int4RangeArrayToInt8Array2Slice", .int4, .rangeArr, true, 8, .int .int8⟩,
  ⟨"int4RangeArrayToInt16Array2Slice", .int4, .rangeArr, true, 16, .int .int16⟩,
  ⟨"int4RangeArrayToInt32Array2Slice", .int4, .rangeArr, true, 32, .int .int32⟩,
  ⟨"int4RangeArrayToInt64Array2Slice", .int4, .rangeArr, true, 32, .int .int64⟩,
  ⟨"int4RangeArrayToUintArray2Slice", .int4, .rangeArr, false, 32, .int .uint⟩,
  ⟨"int4RangeArrayToUint8Array2Slice", .int4, .rangeArr, false, 8, .int .uint8⟩,
  ⟨"int4RangeArrayToUint16Array2Slice", .int4, .rangeArr, false, 16, .int .uint16⟩,
  ⟨"int4RangeArrayToUint32Array2Slice", .int4, .rangeArr, false, 32, .int .uint32⟩,
  ⟨"int4RangeArrayToUint64Array2Slice", .int4, .rangeArr, false, 32, .int .uint64⟩,
  ⟨"int4RangeArrayToFloat32Array2Slice", .int4, .rangeArr, true, 32, .float32⟩,
  ⟨"int4RangeArrayToFloat64Array2Slice", .int4, .rangeArr, true, 32, .float64⟩,
  ⟨"int8RangeArrayToIntArray2Slice", .int8, .rangeArr, true, 64, .int .int⟩,
  ⟨"int8RangeArrayToInt8Array2Slice", .int8, .rangeArr, true, 8, .int .int8⟩,
  ⟨"int8RangeArrayToInt16Array2Slice", .int8, .rangeArr, true, 16, .int .int16⟩,
  ⟨"int8RangeArrayToInt32Array2Slice", .int8, .rangeArr, true, 32, .int .int32⟩,
  ⟨"int8RangeArrayToInt64Array2Slice", .int8, .rangeArr, true, 64, .int .int64⟩,
  ⟨"int8RangeArrayToUintArray2Slice", .int8, .rangeArr, false, 64, .int .uint⟩,
  ⟨"int8RangeArrayToUint8Array2Slice", .int8, .rangeArr, false, 8, .int .uint8⟩,
  ⟨"int8RangeArrayToUint16Array2Slice", .int8, .rangeArr, false, 16, .int .uint16⟩,
  ⟨"int8RangeArrayToUint32Array2Slice", .int8, .rangeArr, false, 32, .int .uint32⟩,
  ⟨"int8RangeArrayToUint64Array2Slice", .int8, .rangeArr, false, 64, .int .uint64⟩,
  ⟨"int8RangeArrayToFloat32Array2Slice", .int8, .rangeArr, true, 32, .float32⟩,
  ⟨"int8RangeArrayToFloat64Array2Slice", .int8, .rangeArr, true, 64, .float64⟩,
  ⟨"numRangeArrayToIntArray2Slice", .numeric, .rangeArr, true, 64, .int .int⟩,
  ⟨"numRangeArrayToInt8Array2Slice", .numeric, .rangeArr, true, 8, .int .int8⟩,
  ⟨"numRangeArrayToInt16Array2Slice", .numeric, .rangeArr, true, 16, .int .int16⟩,
  ⟨"numRangeArrayToInt32Array2Slice", .numeric, .rangeArr, true, 32, .int .int32⟩,
  ⟨"numRangeArrayToInt64Array2Slice", .numeric, .rangeArr, true, 64, .int .int64⟩,
  ⟨"numRangeArrayToUintArray2Slice", .numeric, .rangeArr, false, 64, .int .uint⟩,
  ⟨"numRangeArrayToUint8Array2Slice", .numeric, .rangeArr, false, 8, .int .uint8⟩,
  ⟨"numRangeArrayToUint16Array2Slice", .numeric, .rangeArr, false, 16, .int .uint16⟩,
  ⟨"numRangeArrayToUint32Array2Slice", .numeric, .rangeArr, false, 32, .int .uint32⟩,
  ⟨"numRangeArrayToUint64Array2Slice", .numeric, .rangeArr, false, 64, .int .uint64⟩,
  ⟨"numRangeArrayToFloat32Array2Slice", .numeric, .rangeArr, true, 32, .float32⟩,
  ⟨"numRangeArrayToFloat64Array2Slice", .numeric, .rangeArr, true, 64, .float64⟩]

/-- An element: `strconv.ParseInt(string(elem), 10, bits)` and the conversion to the destination
type (e.g. int2arr.go:167-171). -/
def IntScan.elem (e : IntScan) (s : Bytes) : SR Int :=
  if e.signed then (parseInt 10 e.bits s).map e.dest.conv
  else (parseUint 10 e.bits s).map fun n : Nat => e.dest.conv n

/-! ### Arrays (int2arr.go, int4arr.go, int8arr.go, numericarr.go) -/

/-- The array valuers (e.g. `int2ArrayFromIntSlice.Value`, int2arr.go:133-149). -/
def intArrValue : Option (List Int) → Option Bytes := arrValue (fmtInt 10)

/-- The array scanners (e.g. `int2ArrayToIntSlice.Scan`, int2arr.go:155-176). -/
def intArrScan (e : IntScan) : Option (List Int) → Option Bytes → SR (Option (List Int)) :=
  scanReset fun b => (ofParse (parseCommaArray b)).bind (mapRes e.elem)

/-! ### Vectors (int2vector.go) -/

/-- The vector valuers (e.g. `int2VectorFromIntSlice.Value`, int2vector.go:133-149). -/
def vecValue : Option (List Int) → Option Bytes
  | none => none
  | some xs => some (xs.flatMap fun x => fmtInt 10 x ++ [' ']).dropLast

/-- The vector scanners (e.g. `int2VectorToIntSlice.Scan`, int2vector.go:155-176). -/
def vecScan (e : IntScan) : Option (List Int) → Option Bytes → SR (Option (List Int)) :=
  scanReset fun b => mapRes e.elem (parseVector b)

/-! ### Arrays of vectors (int2vectorarr.go) -/

/-- One vector (int2vectorarr.go:143-148): for an empty (or nil) one the quote just written is
overwritten by a quote. -/
def vecArrElem (xs : List Int) : Bytes :=
  ('"' :: xs.flatMap fun x => fmtInt 10 x ++ [' ']).dropLast ++ ['"']

/-- The valuers (e.g. `int2VectorArrayFromIntSliceSlice.Value`, int2vectorarr.go:133-154). -/
def vecArrValue : Option (List (List Int)) → Option Bytes := arrValue vecArrElem

/-- The scanners (e.g. `int2VectorArrayToIntSliceSlice.Scan`, int2vectorarr.go:160-185): a NULL
element becomes the empty slice. -/
def vecArrScan (e : IntScan) : Option (List (List Int)) → Option Bytes → SR (Option (List (List Int))) :=
  scanReset fun b => (ofParse (parseVectorArray b)).bind
    (mapRes fun x => mapRes e.elem (x.getD []))

/-! ### Ranges (int4range.go, int8range.go, numrange.go) -/

/-- The range valuers (e.g. `int4RangeFromIntArray2.Value`, int4range.go:133-140). -/
def rangeValue (v : Int × Int) : Bytes := '[' :: fmtInt 10 v.1 ++ [','] ++ fmtInt 10 v.2 ++ [')']

/-- A bound (int4range.go:156-160): an empty text leaves 0. -/
def IntScan.bound (e : IntScan) (s : Bytes) : SR Int :=
  if s.length > 0 then e.elem s else .ok 0

/-- Both bounds of a range (int4range.go:154-168). -/
def IntScan.range (e : IntScan) (p : Bytes × Bytes) : SR (Int × Int) :=
  (e.bound p.1).bind fun lo => (e.bound p.2).map fun hi => (lo, hi)

/-- The range scanners (e.g. `int4RangeToIntArray2.Scan`, int4range.go:146-170). -/
def rangeScan (e : IntScan) : Int × Int → Option Bytes → SR (Int × Int) :=
  scanKeep fun b => (ofParse (parseRange b)).bind e.range

/-! ### Arrays of ranges (int4rangearr.go, int8rangearr.go, numrangearr.go) -/

/-- A range in an array (int4rangearr.go:143-147). -/
def rangeElem (v : Int × Int) : Bytes := ['"'] ++ rangeValue v ++ ['"']

/-- The valuers (e.g. `int4RangeArrayFromIntArray2Slice.Value`, int4rangearr.go:133-152). -/
def rangeArrValue : Option (List (Int × Int)) → Option Bytes := arrValue rangeElem

/-- The scanners (e.g. `int4RangeArrayToIntArray2Slice.Scan`, int4rangearr.go:158-190). NULL assigns
`v.val`, the pointer in the copy of the receiver, so the destination stays as it is. A NULL element
makes `pgParseRange(nil)` panic. -/
def rangeArrScan (e : IntScan) : Option (List (Int × Int)) → Option Bytes →
    SR (Option (List (Int × Int))) :=
  scanKeep fun b => ((ofParse (parseQuotedStringArray b)).bind
    (mapRes fun x => (ofParse (parseRange (x.getD []))).bind e.range)).map some

end Verif.Pgsql
