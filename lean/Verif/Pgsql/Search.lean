import Verif.Pgsql.Codecs
/-
Model of the text codecs of package `pgsql` for text search (tsvector.go, tsvectorarr.go,
tsqueryarr.go), of json[] and xml[] (jsonarr.go, xmlarr.go), and of single characters (char.go,
which bpchar.go uses as well).
-/
namespace Verif.Pgsql

open Verif

/-! ### tsvector (pgsql/tsvector.go) -/

/-- `size` of `tsVectorFromStringSlice.Value` (tsvector.go:39-42): the spaces between the elements
and the elements. -/
def tsVectorSize (xs : List Bytes) : Nat := xs.foldl (fun n x => n + x.length) (xs.length - 1)

/-- The bytes written by the loop of `tsVectorFromStringSlice.Value` (tsvector.go:45-55): a space
is written after an element as long as there is room. -/
def tsVectorLoop (size : Nat) : Nat → List Bytes → Bytes
  | _, [] => []
  | pos, x :: r =>
    if pos + x.length < size then x ++ ' ' :: tsVectorLoop size (pos + x.length + 1) r
    else x ++ tsVectorLoop size (pos + x.length) r

/-- `tsVectorFromStringSlice.Value` (tsvector.go:32-57), `tsVectorFromByteSliceSlice.Value`
(tsvector.go:86-111; a nil element is written like an empty one). -/
def tsVectorValue : Option (List Bytes) → Val
  | none => .null
  | some xs =>
    if xs.length = 0 then .text []
    else .ofOption (fixedBuf (tsVectorSize xs) (tsVectorLoop (tsVectorSize xs) 0 xs))

/-- `tsVectorToStringSlice.Scan` (tsvector.go:63-80), `tsVectorToByteSliceSlice.Scan`
(tsvector.go:117-135; every element is made, none is nil). -/
def tsVectorScan : Option (List Bytes) → Option Bytes → SR (Option (List Bytes)) :=
  scanReset fun b => .ok (parseVector b)

/-! ### Arrays whose elements are put between double quotes as they are -/

/-- The shape of the array `Value` methods that write at a running position into a buffer of a
computed size (tsvectorarr.go:32-97, tsqueryarr.go:32-66): `'{'`, the elements each followed by
`','`, and then `'}'` at the position of the last comma. -/
def posValue {α : Type} (size : List α → Nat) (f : α → Bytes) : Option (List α) → Val
  | none => .null
  | some xs =>
    if xs.length = 0 then .text b!"{}"
    else .ofOption ((setLast '}' (arrBody f xs)).bind (fixedBuf (size xs)))

/-- The part of `size` for one element (tsvectorarr.go:41-51). -/
def tsVecElemSize : Option (List Bytes) → Nat
  | none => 4
  | some xs => if xs.length = 0 then 2 else xs.foldl (fun n x => n + x.length) (2 + (xs.length - 1))

/-- `size` of `tsVectorArrayFromStringSliceSlice.Value` (tsvectorarr.go:39-52). -/
def tsVecArrSize (xss : List (Option (List Bytes))) : Nat :=
  xss.foldl (fun n x => n + tsVecElemSize x) (2 + (xss.length - 1))

/-- The element written by `tsVectorArrayFromStringSliceSlice.Value` (tsvectorarr.go:58-91): NULL,
two quotes, or a quote and the elements each followed by a space, the last space being replaced by
the closing quote. -/
def tsVecElem : Option (List Bytes) → Bytes
  | none => b!"NULL"
  | some xs =>
    if xs.length = 0 then b!"\"\""
    else ('"' :: xs.flatMap (fun x => x ++ [' '])).dropLast ++ ['"']

/-- `tsVectorArrayFromStringSliceSlice.Value` (tsvectorarr.go:32-97) and
`tsVectorArrayFromByteSliceSliceSlice.Value` (tsvectorarr.go:138-203). -/
def tsVecArrValue : Option (List (Option (List Bytes))) → Val := posValue tsVecArrSize tsVecElem

/-- The loop body of the scanners (tsvectorarr.go:114-127, :220-234): a vector of one empty
element becomes the empty slice. -/
def tsVecNorm : Option (List Bytes) → Option (List Bytes)
  | none => none
  | some xs => if xs.length = 1 ∧ (xs.headD []).length = 0 then some [] else some xs

/-- `tsVectorArrayToStringSliceSlice.Scan` (tsvectorarr.go:103-132) and
`tsVectorArrayToByteSliceSliceSlice.Scan` (tsvectorarr.go:209-239). -/
def tsVecArrScan : Option (List (Option (List Bytes))) → Option Bytes →
    SR (Option (List (Option (List Bytes)))) :=
  scanReset fun b => (ofParse (parseVectorArray b)).map (·.map tsVecNorm)

/-! ### tsquery[] (pgsql/tsqueryarr.go) -/

/-- The element of `tsQueryArrayFromByteSliceSlice.Value` (tsqueryarr.go:121-138); nothing is
escaped. -/
def tsQueryElem : Option Bytes → Bytes
  | none => b!"NULL"
  | some s => '"' :: (s ++ ['"'])

/-- `size` of `tsQueryArrayFromStringSlice.Value` (tsqueryarr.go:39-44). -/
def tsQuerySize (xs : List Bytes) : Nat :=
  xs.foldl (fun n x => n + x.length) (xs.length * 2 + (xs.length - 1) + 2)

/-- What an element adds to `size` (tsqueryarr.go:106-110). -/
def tsQueryElemSize : Option Bytes → Nat
  | none => 2
  | some s => s.length

/-- `size` of `tsQueryArrayFromByteSliceSlice.Value` (tsqueryarr.go:102-111). -/
def tsQueryBytesSize (xs : List (Option Bytes)) : Nat :=
  xs.foldl (fun n x => n + tsQueryElemSize x) (xs.length * 2 + (xs.length - 1) + 2)

/-- `tsQueryArrayFromStringSlice.Value` (tsqueryarr.go:32-66). -/
def tsQueryFromStrings : Option (List Bytes) → Val :=
  posValue tsQuerySize (fun s => tsQueryElem (some s))

/-- `tsQueryArrayFromByteSliceSlice.Value` (tsqueryarr.go:95-143). -/
def tsQueryFromBytes : Option (List (Option Bytes)) → Val := posValue tsQueryBytesSize tsQueryElem

/-- `tsQueryArrayToStringSlice.Scan` (tsqueryarr.go:72-89): `string(nil)` is the empty string. -/
def tsQueryToStrings : Option (List Bytes) → Option Bytes → SR (Option (List Bytes)) :=
  scanReset fun b => (ofParse (parseStringArray b)).map (·.map (·.getD []))

/-- The loop body of `tsQueryArrayToByteSliceSlice.Scan` (tsqueryarr.go:160-167): four bytes
starting with an `N` are taken for NULL, and the nil element that the parser returns for NULL
becomes an empty slice. -/
def tsQueryBytes (e : Option Bytes) : Option Bytes :=
  if (e.getD []).length = 4 ∧ (e.getD []).head? = some 'N' then none else some (e.getD [])

/-- `tsQueryArrayToByteSliceSlice.Scan` (tsqueryarr.go:149-171). -/
def tsQueryToBytes : Option (List (Option Bytes)) → Option Bytes →
    SR (Option (List (Option Bytes))) :=
  scanReset fun b => (ofParse (parseStringArray b)).map (·.map tsQueryBytes)

/-! ### json[] and xml[] (pgsql/jsonarr.go, pgsql/xmlarr.go) -/

/-- The bytes appended for an element, the comma included (jsonarr.go:31-39, xmlarr.go:31-39). -/
def jsonElem (a : Option Bytes) : Bytes :=
  match a with
  | none => b!"NULL,"
  | some s => quote1 s ++ [',']

/-- `jsonArrayFromByteSliceSlice.Value` (jsonarr.go:22-43), `xmlArrayFromByteSliceSlice.Value`
(xmlarr.go:22-43). -/
def jsonFromBytes : Option (List (Option Bytes)) → Option Bytes
  | none => none
  | some xs =>
    if xs.length = 0 then some b!"{}" else setLast '}' ('{' :: xs.flatMap jsonElem)

/-- The loop body of the scanner (jsonarr.go:61-66, xmlarr.go:61-66). -/
def jsonCopy : Option Bytes → Option Bytes
  | none => none
  | some s => some s

/-- `jsonArrayToByteSliceSlice.Scan` (jsonarr.go:49-71), `xmlArrayToByteSliceSlice.Scan`
(xmlarr.go:49-71). -/
def jsonToBytes : Option (List (Option Bytes)) → Option Bytes → SR (Option (List (Option Bytes))) :=
  scanReset fun b => (ofParse (parseStringArray b)).map (·.map jsonCopy)

/-! ### A single character (pgsql/char.go, pgsql/bpchar.go) -/

/-- `charFromByte.Value` (char.go:33-35). -/
def charFromByte (b : Char) : Bytes := [b]

/-- `charToByte.Scan` (char.go:41-53): an empty text and NULL leave the destination alone. -/
def charToByte (dest : Char) : Option Bytes → Char
  | none => dest
  | some b => if b.length > 0 then b.headD dest else dest

/-- `charFromRune.Value` (char.go:59-61) for a rune that is a Unicode scalar value. -/
def charFromRune (r : Char) : Bytes := utf8 r

/-- `utf8.DecodeRune` of a non-empty text: the rune the text starts with, `U+FFFD` if it starts
with no valid encoding. -/
def decodeRune (b : Bytes) : Char :=
  (ByteArray.utf8DecodeChar? ⟨(b.map fun c => UInt8.ofNat c.toNat).toArray⟩ 0).getD '�'

/-- `charToRune.Scan` (char.go:67-79). -/
def charToRune (dest : Char) : Option Bytes → Char
  | none => dest
  | some b => if b.length > 0 then decodeRune b else dest

end Verif.Pgsql
