import Verif.Pgsql.PropsFloat6
import Verif.Pgsql.PropsGeo
import Verif.Pgsql.PropsInts
import Verif.Pgsql.PropsMac
import Verif.Pgsql.PropsMoney
import Verif.Pgsql.PropsNet4
import Verif.Pgsql.PropsSearch2
import Verif.Pgsql.PropsSearch3
import Verif.Pgsql.PropsText
import Verif.Pgsql.PropsTimeArr3
import Verif.Postgres.Check
/-
The converters of package pgsql by the names of the exported functions that make them, in the pairs in which
the compatibility table of the checker names them (internal/postgres/compatibility.go:57-727).
-/
namespace Verif.Pgsql

open Verif Verif.PgServer

/-- A valuer and a scanner for fields of a Go type: what the valuer sends, and what the scanner stores, given
what the destination holds before and the text that comes from the database. `dom` are the values that the
scanner is expected to read back. -/
structure Codec where
  Ty : Type
  dom : Ty → Prop
  write : Ty → Val
  read : Ty → Option Bytes → SR Ty

/-- What was written is read back, whatever the destination held. -/
def Codec.RoundsTrip (c : Codec) : Prop :=
  ∀ v d, c.dom v → (c.write v).scan (c.read d) = .ok v

/-- Nothing sent is NULL. -/
def sent : Option Bytes → Val
  | none => .null
  | some b => .text b

/-- A pair of exported functions and what they do. -/
structure Pair where
  valuer : Bytes
  scanner : Bytes
  codec : Codec

/-- The times of a pair are among those that a form is for, and nothing of them is lost. -/
def Kept (back : Time → Time) (f : Form) (v : Time × Time) : Prop :=
  (f.Fits v.1 ∧ back v.1 = v.1) ∧ f.Fits v.2 ∧ back v.2 = v.2

/-- A number that both types hold. -/
def IntScan.Both (e : IntScan) (x : Int) : Prop := e.pg.Holds x ∧ e.dest.Holds x

/-- The converters for integers, one pair per row of `intScans`. -/
def intPair (e : IntScan) : Codec :=
  match e.shape with
  | .comma => ⟨Option (List Int), fun v => ∀ xs, v = some xs → ∀ x ∈ xs, e.Both x,
      fun v => sent (intArrValue v), intArrScan e⟩
  | .vector => ⟨Option (List Int), fun v => ∀ xs, v = some xs → ∀ x ∈ xs, e.Both x,
      fun v => sent (vecValue v), vecScan e⟩
  | .vectorArr => ⟨Option (List (List Int)),
      fun v => ∀ xss, v = some xss → [] ∉ xss ∧ ∀ xs ∈ xss, ∀ x ∈ xs, e.Both x,
      fun v => sent (vecArrValue v), vecArrScan e⟩
  | .range => ⟨Int × Int, fun v => e.Both v.1 ∧ e.Both v.2, fun v => .text (rangeValue v), rangeScan e⟩
  | .rangeArr => ⟨Option (List (Int × Int)), fun v => ∃ vs, v = some vs ∧ ∀ p ∈ vs, e.Both p.1 ∧ e.Both p.2,
      fun v => sent (rangeArrValue v), rangeArrScan e⟩

/-- The exported functions for the rows of `intScans`, from row 0 on. -/
def intNames1 : List (Bytes × Bytes) := [
  (b!"Int2ArrayFromIntSlice", b!"Int2ArrayToIntSlice"),
  (b!"Int2ArrayFromInt8Slice", b!"Int2ArrayToInt8Slice"),
  (b!"Int2ArrayFromInt16Slice", b!"Int2ArrayToInt16Slice"),
  (b!"Int2ArrayFromInt32Slice", b!"Int2ArrayToInt32Slice"),
  (b!"Int2ArrayFromInt64Slice", b!"Int2ArrayToInt64Slice"),
  (b!"Int2ArrayFromUintSlice", b!"Int2ArrayToUintSlice"),
  (b!"Int2ArrayFromUint8Slice", b!"Int2ArrayToUint8Slice"),
  (b!"Int2ArrayFromUint16Slice", b!"Int2ArrayToUint16Slice"),
  (b!"Int2ArrayFromUint32Slice", b!"Int2ArrayToUint32Slice"),
  (b!"Int2ArrayFromUint64Slice", b!"Int2ArrayToUint64Slice"),
  (b!"Int2ArrayFromFloat32Slice", b!"Int2ArrayToFloat32Slice"),
  (b!"Int2ArrayFromFloat64Slice", b!"Int2ArrayToFloat64Slice"),
  (b!"Int4ArrayFromIntSlice", b!"Int4ArrayToIntSlice"),
  (b!"Int4ArrayFromInt8Slice", b!"Int4ArrayToInt8Slice"),
  (b!"Int4ArrayFromInt16Slice", b!"Int4ArrayToInt16Slice"),
  (b!"Int4ArrayFromInt32Slice", b!"Int4ArrayToInt32Slice"),
  (b!"Int4ArrayFromInt64Slice", b!"Int4ArrayToInt64Slice"),
  (b!"Int4ArrayFromUintSlice", b!"Int4ArrayToUintSlice"),
  (b!"Int4ArrayFromUint8Slice", b!"Int4ArrayToUint8Slice"),
  (b!"Int4ArrayFromUint16Slice", b!"Int4ArrayToUint16Slice"),
  (b!"Int4ArrayFromUint32Slice", b!"Int4ArrayToUint32Slice"),
  (b!"Int4ArrayFromUint64Slice", b!"Int4ArrayToUint64Slice"),
  (b!"Int4ArrayFromFloat32Slice", b!"Int4ArrayToFloat32Slice"),
  (b!"Int4ArrayFromFloat64Slice", b!"Int4ArrayToFloat64Slice")]

/-- The exported functions for the rows of `intScans`, from row 24 on. -/
def intNames2 : List (Bytes × Bytes) := [
  (b!"Int8ArrayFromIntSlice", b!"Int8ArrayToIntSlice"),
  (b!"Int8ArrayFromInt8Slice", b!"Int8ArrayToInt8Slice"),
  (b!"Int8ArrayFromInt16Slice", b!"Int8ArrayToInt16Slice"),
  (b!"Int8ArrayFromInt32Slice", b!"Int8ArrayToInt32Slice"),
  (b!"Int8ArrayFromInt64Slice", b!"Int8ArrayToInt64Slice"),
  (b!"Int8ArrayFromUintSlice", b!"Int8ArrayToUintSlice"),
  (b!"Int8ArrayFromUint8Slice", b!"Int8ArrayToUint8Slice"),
  (b!"Int8ArrayFromUint16Slice", b!"Int8ArrayToUint16Slice"),
  (b!"Int8ArrayFromUint32Slice", b!"Int8ArrayToUint32Slice"),
  (b!"Int8ArrayFromUint64Slice", b!"Int8ArrayToUint64Slice"),
  (b!"Int8ArrayFromFloat32Slice", b!"Int8ArrayToFloat32Slice"),
  (b!"Int8ArrayFromFloat64Slice", b!"Int8ArrayToFloat64Slice"),
  (b!"NumericArrayFromIntSlice", b!"NumericArrayToIntSlice"),
  (b!"NumericArrayFromInt8Slice", b!"NumericArrayToInt8Slice"),
  (b!"NumericArrayFromInt16Slice", b!"NumericArrayToInt16Slice"),
  (b!"NumericArrayFromInt32Slice", b!"NumericArrayToInt32Slice"),
  (b!"NumericArrayFromInt64Slice", b!"NumericArrayToInt64Slice"),
  (b!"NumericArrayFromUintSlice", b!"NumericArrayToUintSlice"),
  (b!"NumericArrayFromUint8Slice", b!"NumericArrayToUint8Slice"),
  (b!"NumericArrayFromUint16Slice", b!"NumericArrayToUint16Slice"),
  (b!"NumericArrayFromUint32Slice", b!"NumericArrayToUint32Slice"),
  (b!"NumericArrayFromUint64Slice", b!"NumericArrayToUint64Slice"),
  (b!"Int2VectorFromIntSlice", b!"Int2VectorToIntSlice"),
  (b!"Int2VectorFromInt8Slice", b!"Int2VectorToInt8Slice")]

/-- The exported functions for the rows of `intScans`, from row 48 on. -/
def intNames3 : List (Bytes × Bytes) := [
  (b!"Int2VectorFromInt16Slice", b!"Int2VectorToInt16Slice"),
  (b!"Int2VectorFromInt32Slice", b!"Int2VectorToInt32Slice"),
  (b!"Int2VectorFromInt64Slice", b!"Int2VectorToInt64Slice"),
  (b!"Int2VectorFromUintSlice", b!"Int2VectorToUintSlice"),
  (b!"Int2VectorFromUint8Slice", b!"Int2VectorToUint8Slice"),
  (b!"Int2VectorFromUint16Slice", b!"Int2VectorToUint16Slice"),
  (b!"Int2VectorFromUint32Slice", b!"Int2VectorToUint32Slice"),
  (b!"Int2VectorFromUint64Slice", b!"Int2VectorToUint64Slice"),
  (b!"Int2VectorFromFloat32Slice", b!"Int2VectorToFloat32Slice"),
  (b!"Int2VectorFromFloat64Slice", b!"Int2VectorToFloat64Slice"),
  (b!"Int2VectorArrayFromIntSliceSlice", b!"Int2VectorArrayToIntSliceSlice"),
  (b!"Int2VectorArrayFromInt8SliceSlice", b!"Int2VectorArrayToInt8SliceSlice"),
  (b!"Int2VectorArrayFromInt16SliceSlice", b!"Int2VectorArrayToInt16SliceSlice"),
  (b!"Int2VectorArrayFromInt32SliceSlice", b!"Int2VectorArrayToInt32SliceSlice"),
  (b!"Int2VectorArrayFromInt64SliceSlice", b!"Int2VectorArrayToInt64SliceSlice"),
  (b!"Int2VectorArrayFromUintSliceSlice", b!"Int2VectorArrayToUintSliceSlice"),
  (b!"Int2VectorArrayFromUint8SliceSlice", b!"Int2VectorArrayToUint8SliceSlice"),
  (b!"Int2VectorArrayFromUint16SliceSlice", b!"Int2VectorArrayToUint16SliceSlice"),
  (b!"Int2VectorArrayFromUint32SliceSlice", b!"Int2VectorArrayToUint32SliceSlice"),
  (b!"Int2VectorArrayFromUint64SliceSlice", b!"Int2VectorArrayToUint64SliceSlice"),
  (b!"Int2VectorArrayFromFloat32SliceSlice", b!"Int2VectorArrayToFloat32SliceSlice"),
  (b!"Int2VectorArrayFromFloat64SliceSlice", b!"Int2VectorArrayToFloat64SliceSlice"),
  (b!"Int4RangeFromIntArray2", b!"Int4RangeToIntArray2"),
  (b!"Int4RangeFromInt8Array2", b!"Int4RangeToInt8Array2")]

/-- The exported functions for the rows of `intScans`, from row 72 on. -/
def intNames4 : List (Bytes × Bytes) := [
  (b!"Int4RangeFromInt16Array2", b!"Int4RangeToInt16Array2"),
  (b!"Int4RangeFromInt32Array2", b!"Int4RangeToInt32Array2"),
  (b!"Int4RangeFromInt64Array2", b!"Int4RangeToInt64Array2"),
  (b!"Int4RangeFromUintArray2", b!"Int4RangeToUintArray2"),
  (b!"Int4RangeFromUint8Array2", b!"Int4RangeToUint8Array2"),
  (b!"Int4RangeFromUint16Array2", b!"Int4RangeToUint16Array2"),
  (b!"Int4RangeFromUint32Array2", b!"Int4RangeToUint32Array2"),
  (b!"Int4RangeFromUint64Array2", b!"Int4RangeToUint64Array2"),
  (b!"Int4RangeFromFloat32Array2", b!"Int4RangeToFloat32Array2"),
  (b!"Int4RangeFromFloat64Array2", b!"Int4RangeToFloat64Array2"),
  (b!"Int8RangeFromIntArray2", b!"Int8RangeToIntArray2"),
  (b!"Int8RangeFromInt8Array2", b!"Int8RangeToInt8Array2"),
  (b!"Int8RangeFromInt16Array2", b!"Int8RangeToInt16Array2"),
  (b!"Int8RangeFromInt32Array2", b!"Int8RangeToInt32Array2"),
  (b!"Int8RangeFromInt64Array2", b!"Int8RangeToInt64Array2"),
  (b!"Int8RangeFromUintArray2", b!"Int8RangeToUintArray2"),
  (b!"Int8RangeFromUint8Array2", b!"Int8RangeToUint8Array2"),
  (b!"Int8RangeFromUint16Array2", b!"Int8RangeToUint16Array2"),
  (b!"Int8RangeFromUint32Array2", b!"Int8RangeToUint32Array2"),
  (b!"Int8RangeFromUint64Array2", b!"Int8RangeToUint64Array2"),
  (b!"Int8RangeFromFloat32Array2", b!"Int8RangeToFloat32Array2"),
  (b!"Int8RangeFromFloat64Array2", b!"Int8RangeToFloat64Array2"),
  (b!"NumRangeFromIntArray2", b!"NumRangeToIntArray2"),
  (b!"NumRangeFromInt8Array2", b!"NumRangeToInt8Array2")]

/-- The exported functions for the rows of `intScans`, from row 96 on. -/
def intNames5 : List (Bytes × Bytes) := [
  (b!"NumRangeFromInt16Array2", b!"NumRangeToInt16Array2"),
  (b!"NumRangeFromInt32Array2", b!"NumRangeToInt32Array2"),
  (b!"NumRangeFromInt64Array2", b!"NumRangeToInt64Array2"),
  (b!"NumRangeFromUintArray2", b!"NumRangeToUintArray2"),
  (b!"NumRangeFromUint8Array2", b!"NumRangeToUint8Array2"),
  (b!"NumRangeFromUint16Array2", b!"NumRangeToUint16Array2"),
  (b!"NumRangeFromUint32Array2", b!"NumRangeToUint32Array2"),
  (b!"NumRangeFromUint64Array2", b!"NumRangeToUint64Array2"),
  (b!"NumRangeFromFloat32Array2", b!"NumRangeToFloat32Array2"),
  (b!"NumRangeFromFloat64Array2", b!"NumRangeToFloat64Array2"),
  (b!"Int4RangeArrayFromIntArray2Slice", b!"Int4RangeArrayToIntArray2Slice"),
  (b!"Int4RangeArrayFromInt8Array2Slice", b!"Int4RangeArrayToInt8Array2Slice"),
  (b!"Int4RangeArrayFromInt16Array2Slice", b!"Int4RangeArrayToInt16Array2Slice"),
  (b!"Int4RangeArrayFromInt32Array2Slice", b!"Int4RangeArrayToInt32Array2Slice"),
  (b!"Int4RangeArrayFromInt64Array2Slice", b!"Int4RangeArrayToInt64Array2Slice"),
  (b!"Int4RangeArrayFromUintArray2Slice", b!"Int4RangeArrayToUintArray2Slice"),
  (b!"Int4RangeArrayFromUint8Array2Slice", b!"Int4RangeArrayToUint8Array2Slice"),
  (b!"Int4RangeArrayFromUint16Array2Slice", b!"Int4RangeArrayToUint16Array2Slice"),
  (b!"Int4RangeArrayFromUint32Array2Slice", b!"Int4RangeArrayToUint32Array2Slice"),
  (b!"Int4RangeArrayFromUint64Array2Slice", b!"Int4RangeArrayToUint64Array2Slice"),
  (b!"Int4RangeArrayFromFloat32Array2Slice", b!"Int4RangeArrayToFloat32Array2Slice"),
  (b!"Int4RangeArrayFromFloat64Array2Slice", b!"Int4RangeArrayToFloat64Array2Slice"),
  (b!"Int8RangeArrayFromIntArray2Slice", b!"Int8RangeArrayToIntArray2Slice"),
  (b!"Int8RangeArrayFromInt8Array2Slice", b!"Int8RangeArrayToInt8Array2Slice")]

/-- The exported functions for the rows of `intScans`, from row 120 on. -/
def intNames6 : List (Bytes × Bytes) := [
  (b!"Int8RangeArrayFromInt16Array2Slice", b!"Int8RangeArrayToInt16Array2Slice"),
  (b!"Int8RangeArrayFromInt32Array2Slice", b!"Int8RangeArrayToInt32Array2Slice"),
  (b!"Int8RangeArrayFromInt64Array2Slice", b!"Int8RangeArrayToInt64Array2Slice"),
  (b!"Int8RangeArrayFromUintArray2Slice", b!"Int8RangeArrayToUintArray2Slice"),
  (b!"Int8RangeArrayFromUint8Array2Slice", b!"Int8RangeArrayToUint8Array2Slice"),
  (b!"Int8RangeArrayFromUint16Array2Slice", b!"Int8RangeArrayToUint16Array2Slice"),
  (b!"Int8RangeArrayFromUint32Array2Slice", b!"Int8RangeArrayToUint32Array2Slice"),
  (b!"Int8RangeArrayFromUint64Array2Slice", b!"Int8RangeArrayToUint64Array2Slice"),
  (b!"Int8RangeArrayFromFloat32Array2Slice", b!"Int8RangeArrayToFloat32Array2Slice"),
  (b!"Int8RangeArrayFromFloat64Array2Slice", b!"Int8RangeArrayToFloat64Array2Slice"),
  (b!"NumRangeArrayFromIntArray2Slice", b!"NumRangeArrayToIntArray2Slice"),
  (b!"NumRangeArrayFromInt8Array2Slice", b!"NumRangeArrayToInt8Array2Slice"),
  (b!"NumRangeArrayFromInt16Array2Slice", b!"NumRangeArrayToInt16Array2Slice"),
  (b!"NumRangeArrayFromInt32Array2Slice", b!"NumRangeArrayToInt32Array2Slice"),
  (b!"NumRangeArrayFromInt64Array2Slice", b!"NumRangeArrayToInt64Array2Slice"),
  (b!"NumRangeArrayFromUintArray2Slice", b!"NumRangeArrayToUintArray2Slice"),
  (b!"NumRangeArrayFromUint8Array2Slice", b!"NumRangeArrayToUint8Array2Slice"),
  (b!"NumRangeArrayFromUint16Array2Slice", b!"NumRangeArrayToUint16Array2Slice"),
  (b!"NumRangeArrayFromUint32Array2Slice", b!"NumRangeArrayToUint32Array2Slice"),
  (b!"NumRangeArrayFromUint64Array2Slice", b!"NumRangeArrayToUint64Array2Slice"),
  (b!"NumRangeArrayFromFloat32Array2Slice", b!"NumRangeArrayToFloat32Array2Slice"),
  (b!"NumRangeArrayFromFloat64Array2Slice", b!"NumRangeArrayToFloat64Array2Slice")]

/-- The exported functions for the rows of `intScans`, in the same order (int2arr.go:9-133, int4arr.go, int8arr.go,
numericarr.go, int2vector.go, int2vectorarr.go, int4range.go, int8range.go, numrange.go and their arrays). -/
def intNames : List (Bytes × Bytes) :=
  intNames1 ++ intNames2 ++ intNames3 ++ intNames4 ++ intNames5 ++ intNames6

/-- Pairs of converters, part 1. `spare` is what the buffer of the driver has behind the text. -/
def pairs1 (_spare : Bytes) : List Pair := [
  ⟨b!"CharFromByte", b!"CharToByte", ⟨Char,
    fun _ => True,
    fun v => .text (charFromByte v),
    fun d o => .ok (charToByte d o)⟩⟩,
  ⟨b!"CharFromRune", b!"CharToRune", ⟨Char,
    fun _ => True,
    fun v => .text (charFromRune v),
    fun d o => .ok (charToRune d o)⟩⟩,
  ⟨b!"CharArrayFromByteSlice", b!"CharArrayToByteSlice", ⟨Option Bytes,
    fun v => ∀ cs, v = some cs → ∀ c ∈ cs, droppedChar c = false,
    fun v => sent (charFromBytes v),
    charToBytes⟩⟩,
  ⟨b!"CharArrayFromRuneSlice", b!"CharArrayToRuneSlice", ⟨Option (List Char),
    fun v => ∀ cs, v = some cs → ∀ c ∈ cs, droppedChar c = false,
    fun v => sent (charFromRunes v),
    charToRunes⟩⟩,
  ⟨b!"CharArrayFromStringSlice", b!"CharArrayToStringSlice", ⟨Option (List Char),
    fun v => ∀ cs, v = some cs → ∀ c ∈ cs, droppedChar c = false,
    fun v => sent (charFromRunes v),
    charToRunes⟩⟩,
  ⟨b!"CharArrayFromString", b!"CharArrayToString", ⟨Bytes,
    fun v => ∀ c ∈ v, c.toNat < 128 ∧ droppedChar c = false,
    fun v => sent (charFromString v),
    charToString⟩⟩,
  ⟨b!"BPCharFromByte", b!"BPCharToByte", ⟨Char,
    fun _ => True,
    fun v => .text (charFromByte v),
    fun d o => .ok (charToByte d o)⟩⟩,
  ⟨b!"BPCharFromRune", b!"BPCharToRune", ⟨Char,
    fun _ => True,
    fun v => .text (charFromRune v),
    fun d o => .ok (charToRune d o)⟩⟩,
  ⟨b!"BPCharArrayFromByteSlice", b!"BPCharArrayToByteSlice", ⟨Option Bytes,
    fun v => ∀ cs, v = some cs → ∀ c ∈ cs, droppedChar c = false,
    fun v => sent (charFromBytes v),
    charToBytes⟩⟩,
  ⟨b!"BPCharArrayFromRuneSlice", b!"BPCharArrayToRuneSlice", ⟨Option (List Char),
    fun v => ∀ cs, v = some cs → ∀ c ∈ cs, droppedChar c = false,
    fun v => sent (charFromRunes v),
    charToRunes⟩⟩]

/-- Pairs of converters, part 2. `spare` is what the buffer of the driver has behind the text. -/
def pairs2 (_spare : Bytes) : List Pair := [
  ⟨b!"BPCharArrayFromStringSlice", b!"BPCharArrayToStringSlice", ⟨Option (List Char),
    fun v => ∀ cs, v = some cs → ∀ c ∈ cs, droppedChar c = false,
    fun v => sent (charFromRunes v),
    charToRunes⟩⟩,
  ⟨b!"BPCharArrayFromString", b!"BPCharArrayToString", ⟨Bytes,
    fun v => ∀ c ∈ v, c.toNat < 128 ∧ droppedChar c = false,
    fun v => sent (charFromString v),
    charToString⟩⟩,
  ⟨b!"BoolArrayFromBoolSlice", b!"BoolArrayToBoolSlice", ⟨Option (List Bool),
    fun _ => True,
    boolFromBools,
    boolToBools⟩⟩,
  ⟨b!"BitArrayFromBoolSlice", b!"BitArrayToBoolSlice", ⟨Option (List Bool),
    fun _ => True,
    bitFromBools,
    bitToBools⟩⟩,
  ⟨b!"BitArrayFromUint8Slice", b!"BitArrayToUint8Slice", ⟨Option (List Nat),
    fun v => ∀ xs, v = some xs → ∀ x ∈ xs, x ≤ 1,
    bitFromUints,
    bitToUints⟩⟩,
  ⟨b!"BitArrayFromUintSlice", b!"BitArrayToUintSlice", ⟨Option (List Nat),
    fun v => ∀ xs, v = some xs → ∀ x ∈ xs, x ≤ 1,
    bitFromUints,
    bitToUints⟩⟩,
  ⟨b!"VarBitFromInt64", b!"VarBitToInt64", ⟨Int,
    InRange 64,
    fun v => .text (varbitFromInt v),
    varbitToInt⟩⟩,
  ⟨b!"VarBitFromBoolSlice", b!"VarBitToBoolSlice", ⟨Option (List Bool),
    fun _ => True,
    fun v => sent (varbitFromBools v),
    varbitToBools⟩⟩,
  ⟨b!"VarBitFromUint8Slice", b!"VarBitToUint8Slice", ⟨Option (List Nat),
    fun v => ∀ xs, v = some xs → ∀ x ∈ xs, x ≤ 1,
    fun v => sent (varbitFromUint8s v),
    varbitToUint8s⟩⟩,
  ⟨b!"VarBitArrayFromBoolSliceSlice", b!"VarBitArrayToBoolSliceSlice", ⟨Option (List (Option (List Bool))),
    fun _ => True,
    varbitArrFromBools,
    varbitArrToBools⟩⟩]

/-- Pairs of converters, part 3. `spare` is what the buffer of the driver has behind the text. -/
def pairs3 (spare : Bytes) : List Pair := [
  ⟨b!"VarBitArrayFromUint8SliceSlice", b!"VarBitArrayToUint8SliceSlice", ⟨Option (List (Option (List Nat))),
    fun v => ∀ xs, v = some xs → ∀ x ∈ xs, ∀ ns, x = some ns → ∀ n ∈ ns, n ≤ 1,
    varbitArrFromUint8s,
    varbitArrToUint8s⟩⟩,
  ⟨b!"VarBitArrayFromStringSlice", b!"VarBitArrayToStringSlice", ⟨Option (List Bytes),
    fun v => ∃ xs, v = some xs ∧ ∀ s ∈ xs, BitString s,
    varbitArrFromStrings,
    varbitArrToStrings⟩⟩,
  ⟨b!"VarBitArrayFromInt64Slice", b!"VarBitArrayToInt64Slice", ⟨Option (List Int),
    fun v => ∀ xs, v = some xs → ∀ x ∈ xs, InRange 64 x,
    fun v => sent (varbitArrFromInts v),
    varbitArrToInts⟩⟩,
  ⟨b!"ByteaArrayFromByteSliceSlice", b!"ByteaArrayToByteSliceSlice", ⟨Option (List (List UInt8)),
    fun _ => True,
    fun v => sent (byteaFromBytes v),
    byteaToBytes⟩⟩,
  ⟨b!"ByteaArrayFromStringSlice", b!"ByteaArrayToStringSlice", ⟨Option (List (List UInt8)),
    fun _ => True,
    fun v => sent (byteaFromBytes v),
    byteaToBytes⟩⟩,
  ⟨b!"UUIDFromByteArray16", b!"UUIDToByteArray16", ⟨List UInt8,
    fun v => v.length = 16,
    fun v => .text (formatUUID v),
    uuidScan spare⟩⟩,
  ⟨b!"UUIDArrayFromByteArray16Slice", b!"UUIDArrayToByteArray16Slice", ⟨Option (List (List UInt8)),
    fun v => ∀ us, v = some us → ∀ u ∈ us, u.length = 16,
    uuidArrValue,
    uuidArrScan spare⟩⟩,
  ⟨b!"UUIDArrayFromByteSliceSlice", b!"UUIDArrayToByteSliceSlice", ⟨Option (List (Option Bytes)),
    fun v => ∀ xs, v = some xs → ∀ x ∈ xs, ∀ s, x = some s → s.length = 36 ∧ ',' ∉ s,
    uuidArrFromTexts,
    uuidArrToTexts⟩⟩,
  ⟨b!"UUIDArrayFromStringSlice", b!"UUIDArrayToStringSlice", ⟨Option (List Bytes),
    fun v => ∀ xs, v = some xs → ∀ s ∈ xs, s.length = 36 ∧ ',' ∉ s,
    fun v => uuidArrFromTexts (v.map (·.map some)),
    uuidArrToStrings⟩⟩,
  ⟨b!"TextArrayFromStringSlice", b!"TextArrayToStringSlice", ⟨Option (List Bytes),
    fun _ => True,
    fun v => sent (textFromStrings v),
    textToStrings⟩⟩]

/-- Pairs of converters, part 4. `spare` is what the buffer of the driver has behind the text. -/
def pairs4 (_spare : Bytes) : List Pair := [
  ⟨b!"TextArrayFromByteSliceSlice", b!"TextArrayToByteSliceSlice", ⟨Option (List (Option Bytes)),
    fun _ => True,
    fun v => sent (textFromBytes v),
    textToBytes⟩⟩,
  ⟨b!"VarCharArrayFromStringSlice", b!"VarCharArrayToStringSlice", ⟨Option (List Bytes),
    fun _ => True,
    fun v => sent (textFromStrings v),
    textToStrings⟩⟩,
  ⟨b!"VarCharArrayFromByteSliceSlice", b!"VarCharArrayToByteSliceSlice", ⟨Option (List (Option Bytes)),
    fun _ => True,
    fun v => sent (textFromBytes v),
    textToBytes⟩⟩,
  ⟨b!"JSONArrayFromByteSliceSlice", b!"JSONArrayToByteSliceSlice", ⟨Option (List (Option Bytes)),
    fun _ => True,
    fun v => sent (jsonFromBytes v),
    jsonToBytes⟩⟩,
  ⟨b!"XMLArrayFromByteSliceSlice", b!"XMLArrayToByteSliceSlice", ⟨Option (List (Option Bytes)),
    fun _ => True,
    fun v => sent (jsonFromBytes v),
    jsonToBytes⟩⟩,
  ⟨b!"TSVectorFromStringSlice", b!"TSVectorToStringSlice", ⟨Option (List Bytes),
    fun v => ∃ xs, v = some xs ∧ (∀ x ∈ xs, ' ' ∉ x) ∧ xs ≠ [[]],
    tsVectorValue,
    tsVectorScan⟩⟩,
  ⟨b!"TSVectorFromByteSliceSlice", b!"TSVectorToByteSliceSlice", ⟨Option (List Bytes),
    fun v => ∃ xs, v = some xs ∧ (∀ x ∈ xs, ' ' ∉ x) ∧ xs ≠ [[]],
    tsVectorValue,
    tsVectorScan⟩⟩,
  ⟨b!"TSVectorArrayFromStringSliceSlice", b!"TSVectorArrayToStringSliceSlice", ⟨Option (List (Option (List Bytes))),
    fun v => ∃ xss, v = some xss ∧ (∀ x ∈ xss, CleanVec x) ∧ none ∉ xss.dropLast ∧ some [[]] ∉ xss,
    tsVecArrValue,
    tsVecArrScan⟩⟩,
  ⟨b!"TSVectorArrayFromByteSliceSliceSlice", b!"TSVectorArrayToByteSliceSliceSlice", ⟨Option (List (Option (List Bytes))),
    fun v => ∃ xss, v = some xss ∧ (∀ x ∈ xss, CleanVec x) ∧ none ∉ xss.dropLast ∧ some [[]] ∉ xss,
    tsVecArrValue,
    tsVecArrScan⟩⟩,
  ⟨b!"TSQueryArrayFromStringSlice", b!"TSQueryArrayToStringSlice", ⟨Option (List Bytes),
    fun v => ∀ xs, v = some xs → ∀ x ∈ xs, NoEscape x,
    tsQueryFromStrings,
    tsQueryToStrings⟩⟩]

/-- Pairs of converters, part 5. `spare` is what the buffer of the driver has behind the text. -/
def pairs5 (_spare : Bytes) : List Pair := [
  ⟨b!"TSQueryArrayFromByteSliceSlice", b!"TSQueryArrayToByteSliceSlice", ⟨Option (List (Option Bytes)),
    fun v => ∃ xs, v = some xs ∧ (∀ s, some s ∈ xs → NoEscape s) ∧ none ∉ xs ∧
      ∀ s, some s ∈ xs → ¬ (s.length = 4 ∧ s.head? = some 'N'),
    tsQueryFromBytes,
    tsQueryToBytes⟩⟩,
  ⟨b!"MoneyFromInt64", b!"MoneyToInt64", ⟨Int,
    fun v => v.natAbs < 100 * 2 ^ 46 ∧ 25 ∣ v,
    fun v => .text (moneyValue v),
    moneyScan⟩⟩,
  ⟨b!"MoneyArrayFromInt64Slice", b!"MoneyArrayToInt64Slice", ⟨Option (List Int),
    fun v => ∃ vs, v = some vs ∧ ∀ x ∈ vs, x.natAbs < 100 * 2 ^ 46 ∧ 25 ∣ x,
    fun v => sent (moneyArrValue v),
    moneyArrScan⟩⟩,
  ⟨b!"MACAddrFromHardwareAddr", b!"MACAddrToHardwareAddr", ⟨Option Raw,
    fun v => ∃ m, v = some m ∧ (m.length = 6 ∨ m.length = 8 ∨ m.length = 20),
    fun v => sent (macValue v),
    macScan⟩⟩,
  ⟨b!"MACAddrArrayFromHardwareAddrSlice", b!"MACAddrArrayToHardwareAddrSlice", ⟨Option (List (Option Raw)),
    fun v => ∃ ms : List Raw, v = some (ms.map some) ∧ ∀ m ∈ ms, m.length = 6 ∨ m.length = 8 ∨ m.length = 20,
    fun v => sent (macArrValue v),
    macArrScan⟩⟩,
  ⟨b!"MACAddr8FromHardwareAddr", b!"MACAddr8ToHardwareAddr", ⟨Option Raw,
    fun v => ∃ m, v = some m ∧ (m.length = 6 ∨ m.length = 8 ∨ m.length = 20),
    fun v => sent (macValue v),
    macScan⟩⟩,
  ⟨b!"MACAddr8ArrayFromHardwareAddrSlice", b!"MACAddr8ArrayToHardwareAddrSlice", ⟨Option (List (Option Raw)),
    fun v => ∃ ms : List Raw, v = some (ms.map some) ∧ ∀ m ∈ ms, m.length = 6 ∨ m.length = 8 ∨ m.length = 20,
    fun v => sent (macArrValue v),
    macArrScan⟩⟩,
  ⟨b!"InetFromIP", b!"InetToIP", ⟨Option Raw,
    fun v => ∃ ip, v = some ip ∧ ip.length = 16,
    fun v => sent (inetFromIP v),
    inetToIP⟩⟩,
  ⟨b!"InetFromIPNet", b!"InetToIPNet", ⟨IPNet,
    fun n => ∃ v, Canonical n v ∧ v.Network,
    fun n => sent (inetFromNet n),
    inetToNet⟩⟩,
  ⟨b!"CIDRFromIPNet", b!"CIDRToIPNet", ⟨IPNet,
    fun n => ∃ v, Canonical n v ∧ v.Network,
    fun n => sent (cidrFromNet n),
    cidrToNet⟩⟩]

/-- Pairs of converters, part 6. `spare` is what the buffer of the driver has behind the text. -/
def pairs6 (_spare : Bytes) : List Pair := [
  ⟨b!"CIDRArrayFromIPNetSlice", b!"CIDRArrayToIPNetSlice", ⟨Option (List IPNet),
    fun v => ∃ ns, v = some ns ∧ ∀ n ∈ ns, ∃ v, Canonical n v ∧ v.Network,
    fun v => sent (netArrValue v),
    cidrArrToNets⟩⟩,
  ⟨b!"Float4ArrayFromFloat32Slice", b!"Float4ArrayToFloat32Slice", ⟨Option (List Fl),
    fun v => ∃ vs, v = some vs ∧ ∀ x ∈ vs, x.In single,
    fun v => sent (float4FromFloat32 v),
    float4ToFloat32⟩⟩,
  ⟨b!"Float4ArrayFromFloat64Slice", b!"Float4ArrayToFloat64Slice", ⟨Option (List Fl),
    fun v => ∃ vs, v = some vs ∧ ∀ x ∈ vs, x.In double,
    fun v => sent (float4FromFloat64 v),
    float4ToFloat64⟩⟩,
  ⟨b!"Float8ArrayFromFloat32Slice", b!"Float8ArrayToFloat32Slice", ⟨Option (List Fl),
    fun v => ∃ vs, v = some vs ∧ ∀ x ∈ vs, x.In single,
    fun v => sent (float8FromFloat32 v),
    float8ToFloat32⟩⟩,
  ⟨b!"Float8ArrayFromFloat64Slice", b!"Float8ArrayToFloat64Slice", ⟨Option (List Fl),
    fun v => ∃ vs, v = some vs ∧ ∀ x ∈ vs, x.In double,
    fun v => sent (float8FromFloat64 v),
    float8ToFloat64⟩⟩,
  ⟨b!"NumericArrayFromFloat32Slice", b!"NumericArrayToFloat32Slice", ⟨Option (List Fl),
    fun v => ∃ vs, v = some vs ∧ ∀ x ∈ vs, x.In single,
    fun v => sent (numericFromFloat32 v),
    numericToFloat32⟩⟩,
  ⟨b!"NumericArrayFromFloat64Slice", b!"NumericArrayToFloat64Slice", ⟨Option (List Fl),
    fun v => ∃ vs, v = some vs ∧ ∀ x ∈ vs, x.In double,
    fun v => sent (numericFromFloat64 v),
    numericToFloat64⟩⟩,
  ⟨b!"PointFromFloat64Array2", b!"PointToFloat64Array2", ⟨(F64 × F64),
    fun _ => True,
    fun v => .text (pointValue floatCodec v),
    pointScan floatCodec⟩⟩,
  ⟨b!"LsegFromFloat64Array2Array2", b!"LsegToFloat64Array2Array2", ⟨((F64 × F64) × F64 × F64),
    fun _ => True,
    fun v => .text (lsegValue floatCodec v),
    lsegScan floatCodec⟩⟩,
  ⟨b!"LineFromFloat64Array3", b!"LineToFloat64Array3", ⟨(F64 × F64 × F64),
    fun _ => True,
    fun v => .text (lineValue floatCodec v),
    lineScan floatCodec⟩⟩]

/-- Pairs of converters, part 7. `spare` is what the buffer of the driver has behind the text. -/
def pairs7 (_spare : Bytes) : List Pair := [
  ⟨b!"PathFromFloat64Array2Slice", b!"PathToFloat64Array2Slice", ⟨Option (List (F64 × F64)),
    fun v => v ≠ some [],
    fun v => sent (pathValue floatCodec v),
    pathScan floatCodec⟩⟩,
  ⟨b!"PolygonFromFloat64Array2Slice", b!"PolygonToFloat64Array2Slice", ⟨Option (List (F64 × F64)),
    fun v => v ≠ some [],
    fun v => sent (polygonValue floatCodec v),
    polygonScan floatCodec⟩⟩,
  ⟨b!"BoxArrayFromFloat64Array2Array2Slice", b!"BoxArrayToFloat64Array2Array2Slice", ⟨Option (List ((F64 × F64) × F64 × F64)),
    fun _ => True,
    fun v => sent (boxArrValue floatCodec v),
    boxArrScan floatCodec⟩⟩,
  ⟨b!"PointArrayFromFloat64Array2Slice", b!"PointArrayToFloat64Array2Slice", ⟨Option (List (F64 × F64)),
    fun v => v ≠ none,
    fun v => sent (pointArrValue floatCodec v),
    pointArrScan floatCodec⟩⟩,
  ⟨b!"LsegArrayFromFloat64Array2Array2Slice", b!"LsegArrayToFloat64Array2Array2Slice", ⟨Option (List ((F64 × F64) × F64 × F64)),
    fun v => v ≠ none,
    fun v => sent (lsegArrValue floatCodec v),
    lsegArrScan floatCodec⟩⟩,
  ⟨b!"LineArrayFromFloat64Array3Slice", b!"LineArrayToFloat64Array3Slice", ⟨Option (List (F64 × F64 × F64)),
    fun v => v ≠ none,
    fun v => sent (lineArrValue floatCodec v),
    lineArrScan floatCodec⟩⟩,
  ⟨b!"PathArrayFromFloat64Array2SliceSlice", b!"PathArrayToFloat64Array2SliceSlice", ⟨Option (List (Option (List (F64 × F64)))),
    fun v => ∀ vs, v = some vs → some [] ∉ vs,
    fun v => sent (pathArrValue floatCodec v),
    pathArrScan floatCodec⟩⟩,
  ⟨b!"PolygonArrayFromFloat64Array2SliceSlice", b!"PolygonArrayToFloat64Array2SliceSlice", ⟨Option (List (Option (List (F64 × F64)))),
    fun v => ∀ vs, v = some vs → some [] ∉ vs,
    fun v => sent (polygonArrValue floatCodec v),
    polygonArrScan floatCodec⟩⟩,
  ⟨b!"DateArrayFromTimeSlice", b!"DateArrayToTimeSlice", ⟨Option (List Time),
    fun v => ∀ ts, v = some ts → ∀ t ∈ ts, dateForm.Fits t ∧ dateForm.kept t = t,
    fun v => sent (timeArrValue dateForm.layout v),
    timeArrScan dateForm.layout⟩⟩,
  ⟨b!"TimeArrayFromTimeSlice", b!"TimeArrayToTimeSlice", ⟨Option (List Time),
    fun v => ∀ ts, v = some ts → ∀ t ∈ ts, timeForm.Fits t ∧ timeForm.kept t = t,
    fun v => sent (timeArrValue timeForm.layout v),
    timeArrScan timeForm.layout⟩⟩]

/-- Pairs of converters, part 8. `spare` is what the buffer of the driver has behind the text. -/
def pairs8 (_spare : Bytes) : List Pair := [
  ⟨b!"TimetzArrayFromTimeSlice", b!"TimetzArrayToTimeSlice", ⟨Option (List Time),
    fun v => ∀ ts, v = some ts → ∀ t ∈ ts, timetzForm.Fits t ∧ timetzForm.kept t = t,
    fun v => sent (timeArrValue timetzForm.layout v),
    timeArrScan timetzForm.layout⟩⟩,
  ⟨b!"TimestampArrayFromTimeSlice", b!"TimestampArrayToTimeSlice", ⟨Option (List Time),
    fun v => ∀ ts, v = some ts → ∀ t ∈ ts, (Stamp.plain).form.Fits t ∧ (Stamp.plain).form.kept t = t,
    fun v => sent (stampArrValue (Stamp.plain).form.layout v),
    stampArrScan (Stamp.plain).form.layout⟩⟩,
  ⟨b!"TimestamptzArrayFromTimeSlice", b!"TimestamptzArrayToTimeSlice", ⟨Option (List Time),
    fun v => ∀ ts, v = some ts → ∀ t ∈ ts, (Stamp.zoned).form.Fits t ∧ (Stamp.zoned).form.kept t = t,
    fun v => sent (stampArrValue (Stamp.zoned).form.layout v),
    stampArrScan (Stamp.zoned).form.layout⟩⟩,
  ⟨b!"TsRangeFromTimeArray2", b!"TsRangeToTimeArray2", ⟨Time × Time,
    fun v => Kept (Stamp.plain).form.kept (Stamp.plain).form v,
    fun v => .text (stampRangeValue (Stamp.plain).form.layout v),
    stampRangeScan (Stamp.plain).form.layout⟩⟩,
  ⟨b!"TsRangeArrayFromTimeArray2Slice", b!"TsRangeArrayToTimeArray2Slice", ⟨Option (List (Time × Time)),
    fun v => ∀ vs, v = some vs → ∀ p ∈ vs, Kept (Stamp.plain).form.kept (Stamp.plain).form p,
    fun v => sent (stampRangeArrValue (Stamp.plain).form.layout v),
    stampRangeArrScan (Stamp.plain).form.layout⟩⟩,
  ⟨b!"TstzRangeFromTimeArray2", b!"TstzRangeToTimeArray2", ⟨Time × Time,
    fun v => Kept (Stamp.zoned).form.kept (Stamp.zoned).form v,
    fun v => .text (stampRangeValue (Stamp.zoned).form.layout v),
    stampRangeScan (Stamp.zoned).form.layout⟩⟩,
  ⟨b!"TstzRangeArrayFromTimeArray2Slice", b!"TstzRangeArrayToTimeArray2Slice", ⟨Option (List (Time × Time)),
    fun v => ∀ vs, v = some vs → ∀ p ∈ vs, Kept (Stamp.zoned).form.kept (Stamp.zoned).form p,
    fun v => sent (stampRangeArrValue (Stamp.zoned).form.layout v),
    stampRangeArrScan (Stamp.zoned).form.layout⟩⟩,
  ⟨b!"DateRangeFromTimeArray2", b!"DateRangeToTimeArray2", ⟨Time × Time,
    fun v => Kept dateBack dateForm v,
    fun v => .text (dateRangeValue v),
    dateRangeScan⟩⟩,
  ⟨b!"DateRangeArrayFromTimeArray2Slice", b!"DateRangeArrayToTimeArray2Slice", ⟨Option (List (Time × Time)),
    fun v => ∃ vs, v = some vs ∧ ∀ p ∈ vs, Kept dateBack dateForm p,
    fun v => sent (dateRangeArrValue v),
    dateRangeArrScan⟩⟩]

/-- The pairs of converters that are not for integers. -/
def otherPairs (spare : Bytes) : List Pair :=
  pairs1 spare ++ pairs2 spare ++ pairs3 spare ++ pairs4 spare ++ pairs5 spare ++ pairs6 spare ++ pairs7 spare ++ pairs8 spare

/-- All pairs of converters of the compatibility table but those of `unpaired`. -/
def codecPairs (spare : Bytes) : List Pair :=
  (intNames.zip intScans).map (fun p => ⟨p.1.1, p.1.2, intPair p.2⟩) ++ otherPairs spare

/-- The pair of the given names. -/
def codecOf (spare : Bytes) (valuer scanner : Bytes) : Option Codec :=
  ((codecPairs spare).find? fun p => decide (p.valuer = valuer ∧ p.scanner = scanner)).map (·.codec)

/-- Pairs of the compatibility table that are left out: the box whose text the scanner does not read, the
addresses in arrays for which the table has the valuer in the place of the scanner, and JSON and XML, whose
functions make both converters (`docValue`, `docScan`). -/
def unpaired : List (Bytes × Bytes) := [
  (b!"BoxFromFloat64Array2Array2", b!"BoxToFloat64Array2Array2"),
  (b!"InetArrayFromIPNetSlice", b!"InetArrayFromIPNetSlice"),
  (b!"InetArrayFromIPSlice", b!"InetArrayFromIPSlice"),
  (b!"JSON", b!"JSON"),
  (b!"XML", b!"XML")]

/-- Pairs for integers whose scanners refuse numbers that both types hold (`narrow`). -/
def narrowPairs : List (Bytes × Bytes) := [
  (b!"Int8ArrayFromUintSlice", b!"Int8ArrayToUintSlice"),
  (b!"Int8RangeArrayFromFloat32Array2Slice", b!"Int8RangeArrayToFloat32Array2Slice"),
  (b!"NumRangeFromFloat32Array2", b!"NumRangeToFloat32Array2"),
  (b!"NumRangeFromFloat64Array2", b!"NumRangeToFloat64Array2"),
  (b!"NumRangeArrayFromFloat32Array2Slice", b!"NumRangeArrayToFloat32Array2Slice"),
  (b!"NumRangeArrayFromFloat64Array2Slice", b!"NumRangeArrayToFloat64Array2Slice")]

end Verif.Pgsql
