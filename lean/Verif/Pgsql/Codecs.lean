import Verif.Pgsql.Model
/-
Model of the text codecs of package `pgsql`, part 2: `driver.Valuer` / `sql.Scanner`
implementations of textarr.go, hstore.go, hstorearr.go, chararr.go, bitarr.go, boolarr.go,
varbit.go, varbitarr.go, byteaarr.go, uuid.go, uuidarr.go.

* A Go slice that may be nil is `Option (List α)`; `none` is nil.
* The result of `Value` is `Option Bytes`; `none` is the nil interface (SQL NULL). No modelled
  `Value` method returns a non-nil error.
* `Scan` is a function of the value the destination held before, of type `δ`, and of the
  source: `none` is nil (SQL NULL), `some b` a `[]byte` or `string`.  `srcbytes`
  (convert_util.go:19-29) never returns an error; every other dynamic type of the source behaves
  like nil.
* A Go map is its list of entries, in iteration order when it is ranged over.
-/
namespace Verif.Pgsql

open Verif

/-- Errors returned by `Scan`: those of `strconv.ParseInt`/`ParseUint`, of `hex.Decode`, of `time.Parse`, of package net. -/
inductive ScanErr where
  | syntax | range | hex | time | net
deriving Repr, DecidableEq

abbrev SR (α : Type) := Res ScanErr α

/-- A parser panic as a result of `Scan`. -/
def ofParse {α : Type} (o : Option α) : SR α :=
  match o with
  | some a => .ok a
  | none => .panic

/-- `for i := range elems { x, err := f(elems[i]); if err != nil { return err } ... }`. -/
def mapRes {α β : Type} (f : α → SR β) : List α → SR (List β)
  | [] => .ok []
  | a :: r => (f a).bind fun b => (mapRes f r).map (b :: ·)

/-- `out[len(out)-1] = c`; `none` is the index out of range panic. -/
def setLast (c : Char) (s : Bytes) : Option Bytes :=
  if s.length = 0 then none else some (s.dropLast ++ [c])

/-- The bytes written by the usual array loop: `'{'`, then every element followed by `','`. -/
def arrBody {α : Type} (f : α → Bytes) (xs : List α) : Bytes :=
  '{' :: xs.flatMap (fun x => f x ++ [','])

/-- The common shape of an array `Value` method (e.g. textarr.go:32-46): nil is NULL, the empty
slice `{}`, otherwise elements separated by commas, the last comma replaced by `}`. (The last
write cannot panic as the buffer starts with `{`.) -/
def arrValue {α : Type} (f : α → Bytes) : Option (List α) → Option Bytes
  | none => none
  | some xs =>
    if xs.length = 0 then some b!"{}" else setLast '}' (arrBody f xs)

/-- `out := make([]byte, size)`, then the bytes `s` written one after the other from index 0:
`none` is the index out of range panic; unwritten bytes are zero. -/
def fixedBuf (size : Nat) (s : Bytes) : Option Bytes :=
  if s.length ≤ size then some (s ++ List.replicate (size - s.length) '\x00') else none

/-- Outcome of a `Value` method that may panic. -/
inductive Val where
  | null
  | text (b : Bytes)
  | panic
deriving Repr, DecidableEq

def Val.ofOption : Option Bytes → Val
  | some b => .text b
  | none => .panic

/-- Hands the outcome of a `Value` method to a scanner. -/
def Val.scan {δ : Type} (f : Option Bytes → SR δ) : Val → SR δ
  | .null => f none
  | .text b => f (some b)
  | .panic => .panic

/-- The shape of the array `Value` methods that compute the size of their buffer first
(varbitarr.go:53-103, uuidarr.go:42-67): `size` bytes are allocated, `'{'` and the elements each
followed by `','` are written, and the last byte of the buffer is replaced. -/
def sizedValue {α : Type} (size : List α → Nat) (f : α → Bytes) : Option (List α) → Val
  | none => .null
  | some xs =>
    if xs.length = 0 then .text b!"{}"
    else .ofOption ((fixedBuf (size xs) (arrBody f xs)).bind (setLast '}'))

/-- `Scan` with a reset to nil on NULL: `*v.val = nil; return nil`. -/
def scanReset {δ : Type} (f : Bytes → SR δ) (_dest : Option δ) (src : Option Bytes) :
    SR (Option δ) :=
  match src with
  | none => .ok none
  | some b => (f b).map some

/-- `Scan` that returns without touching the destination on NULL. -/
def scanKeep {δ : Type} (f : Bytes → SR δ) (dest : δ) (src : Option Bytes) : SR δ :=
  match src with
  | none => .ok dest
  | some b => f b

/-! ### text[] (pgsql/textarr.go) -/

/-- `textArrayFromStringSlice.Value` (textarr.go:32-46). -/
def textFromStrings : Option (List Bytes) → Option Bytes := arrValue quote1

/-- The element of `textArrayFromByteSliceSlice.Value` (textarr.go:84-88). -/
def textElem : Option Bytes → Bytes
  | none => b!"NULL"
  | some s => quote1 s

/-- `textArrayFromByteSliceSlice.Value` (textarr.go:75-93). -/
def textFromBytes : Option (List (Option Bytes)) → Option Bytes := arrValue textElem

/-- `textArrayToStringSlice.Scan` (textarr.go:52-69): `string(nil)` is the empty string. -/
def textToStrings : Option (List Bytes) → Option Bytes → SR (Option (List Bytes)) :=
  scanReset fun b => (ofParse (parseStringArray b)).map (·.map (·.getD []))

/-- `textArrayToByteSliceSlice.Scan` (textarr.go:99-118). -/
def textToBytes : Option (List (Option Bytes)) → Option Bytes → SR (Option (List (Option Bytes))) :=
  scanReset fun b => ofParse (parseStringArray b)

/-! ### hstore (pgsql/hstore.go) -/

/-- `m[k] = v` on a Go map given as the list of its entries. -/
def mapSet {ν : Type} (m : List (Bytes × ν)) (k : Bytes) (v : ν) : List (Bytes × ν) :=
  m.filter (fun e => e.1 ≠ k) ++ [(k, v)]

/-- `if len(out) > 0 { out = out[:len(out)-1] }`. -/
def dropLastComma (s : Bytes) : Bytes := s.dropLast

/-- Text of an entry's value: the quoted string or `NULL`
(hstore.go:102-106; always quoted in hstore.go:51). -/
def hsVal (q : Bytes → Bytes) : Option Bytes → Bytes
  | some v => q v
  | none => b!"NULL"

/-- `hstoreFromStringPtrMap.Value` (hstore.go:93-114) and `hstoreFromNullStringMap.Value`
(hstore.go:148-169; an entry with `Valid == false` is `none`). -/
def hstoreFromPtrMap : Option (List (Bytes × Option Bytes)) → Option Bytes
  | none => none
  | some es =>
    some (dropLastComma (es.flatMap fun e => quote1 e.1 ++ b!"=>" ++ hsVal quote1 e.2 ++ [',']))

/-- `hstoreFromStringMap.Value` (hstore.go:42-60). -/
def hstoreFromMap : Option (List (Bytes × Bytes)) → Option Bytes
  | none => none
  | some es =>
    some (dropLastComma (es.flatMap fun e => quote1 e.1 ++ b!"=>" ++ quote1 e.2 ++ [',']))

/-- The loop filling the map (hstore.go:76-83): a nil key is the empty string, a nil value the
empty string. -/
def fillMap (ps : List (Option Bytes × Option Bytes)) : List (Bytes × Bytes) :=
  ps.foldl (fun m p => mapSet m (p.1.getD []) (p.2.getD [])) []

/-- The loop filling the map with nullable values (hstore.go:130-138, 185-193). -/
def fillPtrMap (ps : List (Option Bytes × Option Bytes)) : List (Bytes × Option Bytes) :=
  ps.foldl (fun m p => mapSet m (p.1.getD []) p.2) []

/-- `hstoreToStringMap.Scan` (hstore.go:66-87); the destination map may be nil. -/
def hstoreToMap : Option (List (Bytes × Bytes)) → Option Bytes → SR (Option (List (Bytes × Bytes))) :=
  scanKeep fun b => (ofParse (parseHStore b)).map fun ps => some (fillMap ps)

/-- `hstoreToStringPtrMap.Scan` (hstore.go:120-142), `hstoreToNullStringMap.Scan`
(hstore.go:175-197). -/
def hstoreToPtrMap : Option (List (Bytes × Option Bytes)) → Option Bytes →
    SR (Option (List (Bytes × Option Bytes))) :=
  scanKeep fun b => (ofParse (parseHStore b)).map fun ps => some (fillPtrMap ps)

/-! ### hstore[] (pgsql/hstorearr.go) -/

/-- A pair of `hstoreArrayFromStringPtrMapSlice.Value` (hstorearr.go:150-172). -/
def hsaPair (e : Bytes × Option Bytes) : Bytes := quote2 e.1 ++ b!"=>" ++ hsVal quote2 e.2

/-- `size` of hstorearr.go:148-173: the pairs' lengths plus one for each. -/
def hsaSize (es : List (Bytes × Option Bytes)) : Nat := (es.map fun e => (hsaPair e).length + 1).sum

/-- One element (hstorearr.go:142-189): a nil map is `NULL`; an hstore is enclosed in double
quotes. (`hstore` always has its first byte, so replacing the last one cannot panic.) -/
def hsaElem : Option (List (Bytes × Option Bytes)) → Bytes
  | none => b!"NULL"
  | some es =>
    if hsaSize es = 0 then b!"\"\""
    else ('"' :: es.flatMap fun e => hsaPair e ++ [',']).dropLast ++ ['"']

/-- `hstoreArrayFromStringPtrMapSlice.Value` (hstorearr.go:133-193),
`hstoreArrayFromNullStringMapSlice.Value` (hstorearr.go:237-297). -/
def hstoreArrFromPtrMaps : Option (List (Option (List (Bytes × Option Bytes)))) → Option Bytes :=
  arrValue hsaElem

/-- `hstoreArrayFromStringMapSlice.Value` (hstorearr.go:42-90): the same with every value
present. -/
def hstoreArrFromMaps (v : Option (List (Option (List (Bytes × Bytes))))) : Option Bytes :=
  arrValue (fun m => hsaElem (m.map (·.map fun e => (e.1, some e.2)))) v

/-- `hstoreArrayToStringMapSlice.Scan` (hstorearr.go:96-125). -/
def hstoreArrToMaps : Option (List (Option (List (Bytes × Bytes)))) → Option Bytes →
    SR (Option (List (Option (List (Bytes × Bytes))))) :=
  scanKeep fun b => (ofParse (parseHStoreArr b)).map fun es => some (es.map (·.map fillMap))

/-- `hstoreArrayToStringPtrMapSlice.Scan` (hstorearr.go:199-231),
`hstoreArrayToNullStringMapSlice.Scan` (hstorearr.go:303-334). -/
def hstoreArrToPtrMaps : Option (List (Option (List (Bytes × Option Bytes)))) → Option Bytes →
    SR (Option (List (Option (List (Bytes × Option Bytes))))) :=
  scanKeep fun b => (ofParse (parseHStoreArr b)).map fun es => some (es.map (·.map fillPtrMap))

/-! ### char[] (pgsql/chararr.go) -/

/-- The bytes appended for one character, the trailing comma included
(chararr.go:119-132 for bytes; :61-83, :170-192 for runes, whose UTF-8 encoding is `enc r`). -/
def charElem (enc : Char → Bytes) (c : Char) : Bytes :=
  if c = ' ' ∨ c = '\t' ∨ c = '\r' ∨ c = '\n' ∨ c = '\x0c' ∨ c = '\x0b' then ['"', c, '"', ',']
  else if c = '"' ∨ c = '\\' then ['"', '\\', c, '"', ',']
  else if c = ',' then ['"', ',', '"', ',']
  else if c = '\x08' ∨ c = '\x07' then []
  else enc c ++ [',']

/-- The loop and last write of the `charArrayFrom...` valuers. -/
def charLit (enc : Char → Bytes) (cs : List Char) : Option Bytes :=
  if cs.length = 0 then some b!"{}" else setLast '}' ('{' :: cs.flatMap (charElem enc))

/-- `charArrayFromByteSlice.Value` (chararr.go:109-136). -/
def charFromBytes : Option Bytes → Option Bytes
  | none => none
  | some bs => charLit (fun b => [b]) bs

/-- `charArrayFromRuneSlice.Value` (chararr.go:160-195) as a sequence of runes: `enc` is the
identity because the text is compared after decoding (`bytes.Runes`). Also
`charArrayFromStringSlice.Value` (chararr.go:219-255) for strings of one rune. -/
def charFromRunes : Option (List Char) → Option Bytes
  | none => none
  | some rs => charLit (fun r => [r]) rs

/-- UTF-8 encoding of a rune as bytes. -/
def utf8 (c : Char) : Bytes := (String.utf8EncodeChar c).map fun b => Char.ofNat b.toNat

/-- `charArrayFromString.Value` (chararr.go:53-86) on a valid UTF-8 string given by its runes. -/
def charFromString (rs : List Char) : Option Bytes := charLit utf8 rs

/-- `charArrayToByteSlice.Scan` (chararr.go:142-154). -/
def charToBytes : Option Bytes → Option Bytes → SR (Option Bytes) :=
  scanReset fun b => ofParse (parseArray2 b)

/-- `charArrayToRuneSlice.Scan` (chararr.go:201-213); the source as a sequence of runes. -/
def charToRunes : Option (List Char) → Option (List Char) → SR (Option (List Char)) :=
  scanReset fun b => ofParse (parseArray2 b)

/-- `charArrayToString.Scan` (chararr.go:92-103). -/
def charToString : Bytes → Option Bytes → SR Bytes :=
  scanKeep fun b => ofParse (parseArray2 b)

/-! ### boolean[] and bit[] (pgsql/boolarr.go, pgsql/bitarr.go) -/

/-- `boolArrayFromBoolSlice.Value` (boolarr.go:22-45): `1 + 2n` bytes are allocated. -/
def boolFromBools : Option (List Bool) → Val :=
  sizedValue (fun xs => 1 + xs.length * 2) (fun b => if b then ['t'] else ['f'])

/-- `bitArrayFromBoolSlice.Value` (bitarr.go:42-67). -/
def bitFromBools : Option (List Bool) → Val :=
  sizedValue (fun xs => 1 + xs.length * 2) (fun b => if b then ['1'] else ['0'])

/-- `bitArrayFromUint8Slice.Value`, `bitArrayFromUintSlice.Value` (bitarr.go:73-130). -/
def bitFromUints : Option (List Nat) → Val :=
  sizedValue (fun xs => 1 + xs.length * 2) (fun n => if n = 0 then ['0'] else ['1'])

/-- `elems[i][0] == c`: panics on an empty element. -/
def firstIs (c : Char) (e : Bytes) : SR Bool :=
  match e with
  | [] => .panic
  | d :: _ => .ok (d = c)

/-- `boolArrayToBoolSlice.Scan` (boolarr.go:51-72). -/
def boolToBools : Option (List Bool) → Option Bytes → SR (Option (List Bool)) :=
  scanReset fun b => (ofParse (parseCommaArray b)).bind (mapRes (firstIs 't'))

/-- `bitArrayToBoolSlice.Scan` (bitarr.go:136-157). -/
def bitToBools : Option (List Bool) → Option Bytes → SR (Option (List Bool)) :=
  scanReset fun b => (ofParse (parseCommaArray b)).bind (mapRes (firstIs '1'))

/-- `bitArrayToUint8Slice.Scan`, `bitArrayToUintSlice.Scan` (bitarr.go:163-211). -/
def bitToUints : Option (List Nat) → Option Bytes → SR (Option (List Nat)) :=
  scanReset fun b => (ofParse (parseCommaArray b)).bind
    (mapRes fun e => (firstIs '1' e).map fun x => if x then 1 else 0)

/-! ### Integers as text -/

/-- `strconv.AppendInt(nil, v, base)` for `base ≤ 10`. -/
def fmtInt (base : Nat) (v : Int) : Bytes :=
  if v < 0 then '-' :: Nat.toDigits base v.natAbs else Nat.toDigits base v.natAbs

/-- A digit of the given base, `base ≤ 10`. -/
def isDig (base : Nat) (c : Char) : Bool := '0'.toNat ≤ c.toNat && c.toNat < '0'.toNat + base

/-- The digits part of `strconv.ParseUint`: `none` is a syntax error. -/
def parseNat (base : Nat) (s : Bytes) : Option Nat :=
  if s.length = 0 then none
  else if s.all (isDig base) then some (Nat.ofDigitChars base s 0)
  else none

/-- `strconv.ParseUint(s, base, bits)`, `base ≤ 10`.  (If a text both overflows and has a
later non-digit, Go reports the range error; either way it is an error.) -/
def parseUint (base bits : Nat) (s : Bytes) : SR Nat :=
  match parseNat base s with
  | none => .err .syntax
  | some n => if n < 2 ^ bits then .ok n else .err .range

/-- `strconv.ParseInt(s, base, bits)`, `base ≤ 10`. -/
def parseInt (base bits : Nat) (s : Bytes) : SR Int :=
  let neg := s.head? = some '-'
  let rest := if neg ∨ s.head? = some '+' then s.tail else s
  match parseNat base rest with
  | none => .err .syntax
  | some n =>
    if neg then (if n ≤ 2 ^ (bits - 1) then .ok (-(n : Int)) else .err .range)
    else (if n < 2 ^ (bits - 1) then .ok (n : Int) else .err .range)

/-! ### varbit (pgsql/varbit.go) and varbit[] (pgsql/varbitarr.go) -/

/-- `varBitFromInt64.Value` (varbit.go:43-46). -/
def varbitFromInt (v : Int) : Bytes := fmtInt 2 v

/-- `varBitToInt64.Scan` (varbit.go:52-67). -/
def varbitToInt : Int → Option Bytes → SR Int := scanKeep (parseInt 2 64)

def bitChar (b : Bool) : Char := if b then '1' else '0'

/-- `varBitFromBoolSlice.Value` (varbit.go:73-89). -/
def varbitFromBools : Option (List Bool) → Option Bytes
  | none => none
  | some bs => some (bs.map bitChar)

/-- `varBitFromUint8Slice.Value` (varbit.go:119-135): only the value 1 becomes '1'. -/
def varbitFromUint8s : Option (List Nat) → Option Bytes
  | none => none
  | some ns => some (ns.map fun n => bitChar (n = 1))

/-- `varBitToBoolSlice.Scan` (varbit.go:95-113). -/
def varbitToBools : Option (List Bool) → Option Bytes → SR (Option (List Bool)) :=
  scanReset fun b => .ok (b.map fun c => decide (c = '1'))

/-- `varBitToUint8Slice.Scan` (varbit.go:141-159). -/
def varbitToUint8s : Option (List Nat) → Option Bytes → SR (Option (List Nat)) :=
  scanReset fun b => .ok (b.map fun c => if c = '1' then 1 else 0)

/-- An element of a varbit[] literal (varbitarr.go:76-95): NULL, `""` or the bits. -/
def vbElem {α : Type} (bit : α → Char) : Option (List α) → Bytes
  | none => b!"NULL"
  | some bs => if bs.length = 0 then b!"\"\"" else bs.map bit

/-- The size computed in varbitarr.go:60-69, 154-163. -/
def vbSize {α : Type} (xs : List (Option (List α))) : Nat :=
  2 + (xs.length - 1) + (xs.map fun x => match x with
    | none => 4
    | some bs => if bs.length = 0 then 2 else bs.length).sum

/-- `varBitArrayFromBoolSliceSlice.Value` (varbitarr.go:53-103). -/
def varbitArrFromBools : Option (List (Option (List Bool))) → Val :=
  sizedValue vbSize (vbElem bitChar)

/-- `varBitArrayFromUint8SliceSlice.Value` (varbitarr.go:147-197). -/
def varbitArrFromUint8s : Option (List (Option (List Nat))) → Val :=
  sizedValue vbSize (vbElem fun n => bitChar (n = 1))

/-- An element in `varBitArrayToBoolSliceSlice.Scan`, `varBitArrayToUint8SliceSlice.Scan`
(varbitarr.go:121-136, 215-230). -/
def vbScanElem {α : Type} (f : Char → α) (e : Bytes) : Option (List α) :=
  if e.length = 4 ∧ e.head? = some 'N' then none
  else if e.length = 2 ∧ e.head? = some '"' then some []
  else some (e.map f)

/-- `varBitArrayToBoolSliceSlice.Scan` (varbitarr.go:109-141). -/
def varbitArrToBools : Option (List (Option (List Bool))) → Option Bytes →
    SR (Option (List (Option (List Bool)))) :=
  scanReset fun b => (ofParse (parseCommaArray b)).map (·.map (vbScanElem fun c => decide (c = '1')))

/-- `varBitArrayToUint8SliceSlice.Scan` (varbitarr.go:203-235). -/
def varbitArrToUint8s : Option (List (Option (List Nat))) → Option Bytes →
    SR (Option (List (Option (List Nat)))) :=
  scanReset fun b => (ofParse (parseCommaArray b)).map
    (·.map (vbScanElem fun c => if c = '1' then 1 else 0))

/-- `varBitArrayFromStringSlice.Value` (varbitarr.go:241-277). -/
def varbitArrFromStrings : Option (List Bytes) → Val :=
  sizedValue (fun xs => 2 + (xs.length - 1) +
      (xs.map fun x => if x.length = 0 then 2 else x.length).sum)
    (fun s => if s.length = 0 then b!"\"\"" else s)

/-- `varBitArrayToStringSlice.Scan` (varbitarr.go:283-304). -/
def varbitArrToStrings : Option (List Bytes) → Option Bytes → SR (Option (List Bytes)) :=
  scanReset fun b => (ofParse (parseCommaArray b)).map
    (·.map fun e => if e.length = 2 ∧ e.head? = some '"' then [] else e)

/-- `varBitArrayFromInt64Slice.Value` (varbitarr.go:310-324). -/
def varbitArrFromInts : Option (List Int) → Option Bytes := arrValue (fmtInt 2)

/-- `varBitArrayToInt64Slice.Scan` (varbitarr.go:330-351). -/
def varbitArrToInts : Option (List Int) → Option Bytes → SR (Option (List Int)) :=
  scanReset fun b => (ofParse (parseCommaArray b)).bind (mapRes (parseInt 2 64))

/-! ### bytea[] (pgsql/byteaarr.go) -/

/-- The table of `encoding/hex`: `"0123456789abcdef"`. -/
def hexDigit (n : Nat) : Char := Char.ofNat (if n < 10 then 48 + n else 87 + n)

/-- `hex.Encode`: two lower case digits per byte. -/
def hexEncode (bs : List UInt8) : Bytes :=
  bs.flatMap fun b => [hexDigit (b.toNat / 16), hexDigit (b.toNat % 16)]

/-- `fromHexChar` of encoding/hex. -/
def fromHex (c : Char) : Option Nat :=
  if '0'.toNat ≤ c.toNat ∧ c.toNat ≤ '9'.toNat then some (c.toNat - 48)
  else if 'a'.toNat ≤ c.toNat ∧ c.toNat ≤ 'f'.toNat then some (c.toNat - 87)
  else if 'A'.toNat ≤ c.toNat ∧ c.toNat ≤ 'F'.toNat then some (c.toNat - 55)
  else none

/-- `hex.Decode` into a large enough buffer: invalid byte or odd length is an error. -/
def hexDecode : Bytes → SR (List UInt8)
  | [] => .ok []
  | [_] => .err .hex
  | a :: b :: r =>
    match fromHex a, fromHex b with
    | some x, some y => (hexDecode r).map (UInt8.ofNat (x * 16 + y) :: ·)
    | _, _ => .err .hex

/-- An element of a bytea[] literal (byteaarr.go:44-50). -/
def byteaElem (bs : List UInt8) : Bytes := ['"', '\\', '\\', 'x'] ++ hexEncode bs ++ ['"']

/-- `byteaArrayFromByteSliceSlice.Value` (byteaarr.go:33-55; a nil element is the empty string),
`byteaArrayFromStringSlice.Value` (byteaarr.go:94-117). -/
def byteaFromBytes : Option (List (List UInt8)) → Option Bytes := arrValue byteaElem

/-- An element of the scanners (byteaarr.go:73-83, 135-145): `src[4 : len(src)-1]` panics when
`len(src) < 5`. -/
def byteaScanElem (e : Bytes) : SR (List UInt8) :=
  if e.length < 5 then .panic else hexDecode (e.drop 4).dropLast

/-- `byteaArrayToByteSliceSlice.Scan`, `byteaArrayToStringSlice.Scan`
(byteaarr.go:61-88, 123-150). -/
def byteaToBytes : Option (List (List UInt8)) → Option Bytes → SR (Option (List (List UInt8))) :=
  scanReset fun b => (ofParse (parseCommaArray b)).bind (mapRes byteaScanElem)

/-! ### uuid (pgsql/uuid.go) and uuid[] (pgsql/uuidarr.go) -/

/-- `pgFormatUUID` (convert_util.go:708-725) on the 16 bytes. -/
def formatUUID (u : List UInt8) : Bytes :=
  hexEncode (u.take 4) ++ ['-'] ++ hexEncode ((u.drop 4).take 2) ++ ['-'] ++
    hexEncode ((u.drop 6).take 2) ++ ['-'] ++ hexEncode ((u.drop 8).take 2) ++ ['-'] ++
    hexEncode (u.drop 10)

/-- `hex.Decode(dst, src)` with a `dst` of `n` bytes: writing a byte beyond `dst` panics. -/
def hexDecodeInto : Nat → Bytes → SR (List UInt8)
  | _, [] => .ok []
  | _, [_] => .err .hex
  | n, a :: b :: r =>
    match fromHex a, fromHex b with
    | some x, some y =>
      match n with
      | 0 => .panic
      | n + 1 => (hexDecodeInto n r).map (UInt8.ofNat (x * 16 + y) :: ·)
    | _, _ => .err .hex

/-- `data[lo:hi]`: may reach beyond the length of the slice up to its capacity (`spare` are the
bytes there), beyond that it panics. -/
def slice (data spare : Bytes) (lo hi : Nat) : SR Bytes :=
  if (data ++ spare).length < hi then .panic else .ok (((data ++ spare).take hi).drop lo)

/-- `data[lo:]`: panics if `lo` is beyond the length. -/
def sliceFrom (data : Bytes) (lo : Nat) : SR Bytes :=
  if data.length < lo then .panic else .ok (data.drop lo)

/-- `pgParseUUID` (convert_util.go:688-706). When the last part is shorter than 12 digits the
rest of the array stays zero. The bytes at 8, 13, 18 and 23 are not looked at. -/
def parseUUID (spare data : Bytes) : SR (List UInt8) := do
  let a ← (slice data spare 0 8).bind (hexDecodeInto 4)
  let b ← (slice data spare 9 13).bind (hexDecodeInto 2)
  let c ← (slice data spare 14 18).bind (hexDecodeInto 2)
  let d ← (slice data spare 19 23).bind (hexDecodeInto 2)
  let e ← (sliceFrom data 24).bind (hexDecodeInto 6)
  return a ++ b ++ c ++ d ++ (e ++ List.replicate (6 - e.length) 0)

/-- `uuidToByteArray16.Scan` (uuid.go:30-45). -/
def uuidScan (spare : Bytes) : List UInt8 → Option Bytes → SR (List UInt8) :=
  scanKeep (parseUUID spare)

/-- The elements of an array together with the bytes between their length and capacity: they are
sub-slices of the array text. `fin` is the last byte of the text and whatever the driver's
buffer has after it. -/
def withSpare (fin : Bytes) : List Bytes → List (Bytes × Bytes)
  | [] => []
  | e :: r => (e, r.flatMap (',' :: ·) ++ fin) :: withSpare fin r

/-- `uuidArrayFromByteArray16Slice.Value` (uuidarr.go:42-67); the last write goes to the position
of the last comma, which is the last byte. -/
def uuidArrValue : Option (List (List UInt8)) → Val :=
  sizedValue (fun xs => 1 + xs.length + xs.length * 36) formatUUID

/-- `uuidArrayToByteArray16Slice.Scan` (uuidarr.go:73-94). -/
def uuidArrScan (spare : Bytes) :
    Option (List (List UInt8)) → Option Bytes → SR (Option (List (List UInt8))) :=
  scanReset fun b => (ofParse (parseCommaArray b)).bind fun es =>
    mapRes (fun e => parseUUID e.2 e.1) (withSpare (b.drop (b.length - 1) ++ spare) es)

/-- `uuidArrayFromByteSliceSlice.Value` (uuidarr.go:157-197). `uuidArrayFromStringSlice.Value`
(uuidarr.go:100-128) is the same without nil elements. -/
def uuidArrFromTexts : Option (List (Option Bytes)) → Val :=
  sizedValue (fun xs => 2 + (xs.length - 1) + (xs.map fun x => match x with
      | none => 4
      | some s => s.length).sum)
    (fun x => x.getD b!"NULL")

/-- `uuidArrayToByteSliceSlice.Scan` (uuidarr.go:203-225). -/
def uuidArrToTexts : Option (List (Option Bytes)) → Option Bytes →
    SR (Option (List (Option Bytes))) :=
  scanReset fun b => (ofParse (parseCommaArray b)).map
    (·.map fun e => if e.length = 4 ∧ e.head? = some 'N' then none else some e)

/-- `uuidArrayToStringSlice.Scan` (uuidarr.go:134-151). -/
def uuidArrToStrings : Option (List Bytes) → Option Bytes → SR (Option (List Bytes)) :=
  scanReset fun b => ofParse (parseCommaArray b)

end Verif.Pgsql
