import Verif.Base
/-
What the texts mean to PostgreSQL, written from the PostgreSQL documentation (arrays 8.15.2 and
8.15.6, hstore F.18.1, bytea 8.4.1) and independent of the Go code and of its model.  Only one
dimensional arrays without explicit bounds.
-/
namespace Verif.PgServer

open Verif

/-- White space between the parts of an array literal. -/
def isSpace (c : Char) : Bool :=
  c = ' ' || c = '\t' || c = '\n' || c = '\r' || c = '\x0b' || c = '\x0c'

def lower (c : Char) : Char :=
  if 'A'.toNat ≤ c.toNat ∧ c.toNat ≤ 'Z'.toNat then Char.ofNat (c.toNat + 32) else c

/-- Equal to NULL, ignoring case. -/
def isNull (s : Bytes) : Bool := s.map lower == b!"null"

def trimEnd (s : Bytes) : Bytes := (s.reverse.dropWhile isSpace).reverse

/-- States of the array reader. -/
inductive ASt where
  /-- before the opening brace -/
  | start
  /-- directly after the opening brace: an element or the closing brace -/
  | first
  /-- after a comma: an element -/
  | elem
  /-- inside a quoted element -/
  | quoted (s : Bytes)
  /-- after a backslash inside a quoted element -/
  | quotedEsc (s : Bytes)
  /-- inside an unquoted element -/
  | bare (s : Bytes)
  /-- after an element: comma, closing brace -/
  | after
  /-- after the closing brace -/
  | done
deriving Repr, DecidableEq

/-- The element an unquoted text stands for; unquoted backslashes are not handled (rejected). -/
def bareElem (s : Bytes) : Option Bytes :=
  if isNull (trimEnd s) then none else some (trimEnd s)

/-- Array input: `none` is a malformed literal. -/
def arrayGo : ASt → Bytes → Option (List (Option Bytes))
  | .done, [] => some []
  | _, [] => none
  | .start, c :: r =>
    if c = '{' then arrayGo .first r else if isSpace c then arrayGo .start r else none
  | .first, c :: r =>
    if isSpace c then arrayGo .first r
    else if c = '}' then arrayGo .done r
    else if c = '"' then arrayGo (.quoted []) r
    else if c = ',' ∨ c = '{' ∨ c = '\\' then none
    else arrayGo (.bare [c]) r
  | .elem, c :: r =>
    if isSpace c then arrayGo .elem r
    else if c = '"' then arrayGo (.quoted []) r
    else if c = ',' ∨ c = '{' ∨ c = '}' ∨ c = '\\' then none
    else arrayGo (.bare [c]) r
  | .quoted s, c :: r =>
    if c = '\\' then arrayGo (.quotedEsc s) r
    else if c = '"' then (arrayGo .after r).map (some s :: ·)
    else arrayGo (.quoted (s ++ [c])) r
  | .quotedEsc s, c :: r => arrayGo (.quoted (s ++ [c])) r
  | .bare s, c :: r =>
    if c = ',' then (arrayGo .elem r).map (bareElem s :: ·)
    else if c = '}' then (arrayGo .done r).map (bareElem s :: ·)
    else if c = '"' ∨ c = '{' ∨ c = '\\' then none
    else arrayGo (.bare (s ++ [c])) r
  | .after, c :: r =>
    if c = ',' then arrayGo .elem r
    else if c = '}' then arrayGo .done r
    else if isSpace c then arrayGo .after r
    else none
  | .done, c :: r => if isSpace c then arrayGo .done r else none

/-- The value of an array literal: its elements, `none` for NULL. -/
def arrayIn (s : Bytes) : Option (List (Option Bytes)) := arrayGo .start s

/-- Array output puts quotes around empty strings, around NULL, and around texts with special
characters. -/
def needsQuote (s : Bytes) : Bool :=
  s.isEmpty || isNull s ||
  s.any fun c => isSpace c || c = '"' || c = '\\' || c = '{' || c = '}' || c = ','

/-- A quoted element: quotes and backslashes get a backslash. -/
def quoteOut (s : Bytes) : Bytes :=
  '"' :: s.flatMap (fun c => if c = '"' ∨ c = '\\' then ['\\', c] else [c]) ++ ['"']

def elemOut : Option Bytes → Bytes
  | none => b!"NULL"
  | some s => if needsQuote s then quoteOut s else s

/-- Texts separated by a separator. -/
def joinWith (sep : Bytes) : List Bytes → Bytes
  | [] => []
  | [x] => x
  | x :: y :: r => x ++ sep ++ joinWith sep (y :: r)

/-- Array output. -/
def arrayOut (xs : List (Option Bytes)) : Bytes :=
  '{' :: joinWith b!"," (xs.map elemOut) ++ ['}']

/-- hstore output: `"key"=>"value"` or `"key"=>NULL`, separated by a comma and a space. -/
def hstoreOut (es : List (Bytes × Option Bytes)) : Bytes :=
  joinWith b!", " (es.map fun e => quoteOut e.1 ++ b!"=>" ++
    (match e.2 with | some v => quoteOut v | none => b!"NULL"))

/-- States of the hstore reader. -/
inductive HSt where
  | key0            -- before the first key
  | key             -- before a further key
  | keyQ (k : Bytes) | keyE (k : Bytes)
  | eq (k : Bytes) | gt (k : Bytes)
  | val (k : Bytes)
  | valQ (k v : Bytes) | valE (k v : Bytes)
  | valB (k v : Bytes)
  | after
deriving Repr, DecidableEq

/-- hstore input with quoted keys, and values that are quoted or the word NULL: `none` is
malformed (or an unquoted key/value other than NULL, which the reader leaves out). -/
def hstoreGo : HSt → Bytes → Option (List (Bytes × Option Bytes))
  | .key0, [] => some []
  | .after, [] => some []
  | .valB k v, [] => if isNull v then some [(k, none)] else none
  | _, [] => none
  | .key0, c :: r =>
    if isSpace c then hstoreGo .key0 r else if c = '"' then hstoreGo (.keyQ []) r else none
  | .key, c :: r =>
    if isSpace c then hstoreGo .key r else if c = '"' then hstoreGo (.keyQ []) r else none
  | .keyQ k, c :: r =>
    if c = '\\' then hstoreGo (.keyE k) r
    else if c = '"' then hstoreGo (.eq k) r
    else hstoreGo (.keyQ (k ++ [c])) r
  | .keyE k, c :: r => hstoreGo (.keyQ (k ++ [c])) r
  | .eq k, c :: r =>
    if c = '=' then hstoreGo (.gt k) r else if isSpace c then hstoreGo (.eq k) r else none
  | .gt k, c :: r => if c = '>' then hstoreGo (.val k) r else none
  | .val k, c :: r =>
    if isSpace c then hstoreGo (.val k) r
    else if c = '"' then hstoreGo (.valQ k []) r
    else hstoreGo (.valB k [c]) r
  | .valQ k v, c :: r =>
    if c = '\\' then hstoreGo (.valE k v) r
    else if c = '"' then (hstoreGo .after r).map ((k, some v) :: ·)
    else hstoreGo (.valQ k (v ++ [c])) r
  | .valE k v, c :: r => hstoreGo (.valQ k (v ++ [c])) r
  | .valB k v, c :: r =>
    if c = ',' then (if isNull v then (hstoreGo .key r).map ((k, none) :: ·) else none)
    else if isSpace c then (if isNull v then (hstoreGo .after r).map ((k, none) :: ·) else none)
    else hstoreGo (.valB k (v ++ [c])) r
  | .after, c :: r =>
    if c = ',' then hstoreGo .key r else if isSpace c then hstoreGo .after r else none

def hstoreIn (s : Bytes) : Option (List (Bytes × Option Bytes)) := hstoreGo .key0 s

/-- bytea input in hex format: `\x` and pairs of hexadecimal digits (white space between pairs
is not modelled). -/
def hexVal (c : Char) : Option Nat := (b!"0123456789abcdef").idxOf? (lower c)

def byteaHex : Bytes → Option (List UInt8)
  | [] => some []
  | [_] => none
  | a :: b :: r => do
    let x ← hexVal a
    let y ← hexVal b
    let t ← byteaHex r
    return UInt8.ofNat (16 * x + y) :: t

def byteaIn (s : Bytes) : Option (List UInt8) :=
  if s.take 2 = b!"\\x" then byteaHex (s.drop 2) else none

def hexChar (n : Nat) : Char := (b!"0123456789abcdef").getD n '0'

/-- bytea output, `bytea_output = hex` (the default). -/
def byteaOut (bs : List UInt8) : Bytes :=
  b!"\\x" ++ bs.flatMap fun b => [hexChar (b.toNat / 16), hexChar (b.toNat % 16)]

/-- Output of `boolean`. -/
def boolOut (b : Bool) : Bytes := if b then b!"t" else b!"f"

/-- A bit string constant: only zeros and ones (8.10). -/
def BitString (s : Bytes) : Prop := ∀ c ∈ s, c = '0' ∨ c = '1'

end Verif.PgServer
