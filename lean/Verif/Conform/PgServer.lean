import Verif.Pgsql.Ints
import Verif.Pgsql.Geo
import Verif.Pgsql.Time
import Verif.Pgsql.Net
import Verif.Pgsql.Money
import Verif.Pgsql.Search
import Verif.Pgsql.Floats
import Verif.Pgsql.SpecMoney
import Verif.Pgsql.SpecTime

/-
The tests of package pgsql, /repo/pgsql/*_test.go, hand the value of a valuer to a PostgreSQL server, which
stores it in a column of the type that is tested, and hand what the server sends back to a scanner
(/repo/pgsql/convert_test.go:220-265). This file says what the server makes of a text: `Column` is the input
function followed by the output function of a type. They are specifications, no models of code in /repo, and are
checked against the cases of the tests in which a plain text goes in and a plain text comes out.
-/
namespace Verif.Conform.Codec
open Verif Verif.Pgsql Verif.PgServer

/-- What the server sends back for a text, if it accepts it. -/
abbrev Column := Bytes → Option Bytes

/-- One case of a test: what the valuer gives for the input, and whether what the scanner makes of a text (or of
NULL) is the expected output. -/
structure Case where
  line : Nat
  stored : Val
  reads : Option Bytes → Bool

/-- The check made by `testlist2.execute` (/repo/pgsql/convert_test.go:220-265). -/
def Passes (col : Column) (c : Case) : Prop :=
  match c.stored with
  | .null => c.reads none = true
  | .text s => ∃ t, col s = some t ∧ c.reads (some t) = true
  | .panic => False

def passes (col : Column) (c : Case) : Bool :=
  match c.stored with
  | .null => c.reads none
  | .text s => match col s with
    | some t => c.reads (some t)
    | none => false
  | .panic => false

theorem passes_iff (col : Column) (c : Case) : passes col c = true ↔ Passes col c := by
  unfold passes Passes
  cases c.stored with
  | null => exact Iff.rfl
  | panic => simp
  | text s => cases h : col s <;> simp [h]

/-- The tests of a file: the type of the column, the cases with a valuer and a scanner, and the cases in which a
text goes in and a text comes out. -/
structure File where
  name : String
  col : Column
  cases : List Case
  texts : List (Nat × Bytes × Bytes)

/-- All checks of a file. -/
def File.ok (f : File) : Bool :=
  f.cases.all (passes f.col) && f.texts.all fun t => decide (f.col t.2.1 = some t.2.2)

/-- `Value` of a valuer that does not panic; nil is NULL. -/
def stored : Option Bytes → Val
  | none => .null
  | some b => .text b

/-- The scanner returns no error and the value is the expected one. -/
def gives {α : Type} [DecidableEq α] (r : SR α) (want : α) : Bool := decide (r = .ok want)

/-- The row of the table of the scanners for integers. -/
def scanner (name : String) : IntScan :=
  (intScans.find? (·.name == name)).getD ⟨"", .int2, .comma, true, 0, .float32⟩

/-- Two maps are the same: every entry of each is one of the other. -/
def sameMap {ν : Type} [DecidableEq ν] (a b : List (Bytes × ν)) : Bool :=
  a.length == b.length && a.all (b.contains ·) && b.all (a.contains ·)

def sameMaps {ν : Type} [DecidableEq ν] : List (Option (List (Bytes × ν))) → List (Option (List (Bytes × ν))) → Bool
  | [], [] => true
  | none :: a, none :: b => sameMaps a b
  | some x :: a, some y :: b => sameMap x y && sameMaps a b
  | _, _ => false

/-- The scanner gives the expected map, whatever the order of the entries. -/
def givesMap {ν : Type} [DecidableEq ν] (r : SR (Option (List (Bytes × ν)))) (want : Option (List (Bytes × ν))) :
    Bool :=
  match r, want with
  | .ok none, none => true
  | .ok (some a), some b => sameMap a b
  | _, _ => false

def givesMaps {ν : Type} [DecidableEq ν] (r : SR (Option (List (Option (List (Bytes × ν))))))
    (want : Option (List (Option (List (Bytes × ν))))) : Bool :=
  match r, want with
  | .ok none, none => true
  | .ok (some a), some b => sameMaps a b
  | _, _ => false

/-- The coordinates of the geometric types: float64. -/
def coords : NumCodec Fl where
  fmt := fmtFloat double
  parse := parseFl double

/-- The driver makes a `time.Time` of the text of a date, of a time, of a time with a zone. -/
def asTime (r : Option Time) : TSrc :=
  match r with
  | some t => .time t
  | none => .null

def asDate (r : Option Bytes) : TSrc :=
  asTime ((r.bind dateIn).map fun d => { year := d.year, month := d.month, day := d.day })

def clockTime (c : Clock) (offset : Int) : Time :=
  { hour := c.hour, minute := c.minute, second := c.second, nano := c.micro * 1000, offset := offset }

def asClock (r : Option Bytes) : TSrc := asTime ((r.bind clockIn).map fun c => clockTime c 0)

def asTimetz (r : Option Bytes) : TSrc := asTime ((r.bind timetzIn).map fun v => clockTime v.1 v.2)

/-! ### Types -/

/-- Every element goes through the functions of the element type. -/
def elems (col : Column) : List (Option Bytes) → Option (List (Option Bytes))
  | [] => some []
  | none :: r => (elems col r).map (none :: ·)
  | some e :: r =>
    match col e, elems col r with
    | some e', some r' => some (some e' :: r')
    | _, _ => none

/-- The array type of a type. -/
def arrayOf (col : Column) : Column := fun s =>
  ((arrayIn s).bind (elems col)).map arrayOut

/-- text, varchar, json, xml, tsquery, tsvector: the text is kept. (This is so for documents without errors, and
for the texts in the output format, which are the only ones of the tests.) -/
def keep : Column := some

/-- `bpchar`, and `char` with a character. -/
def chars : Column := some

def within (lo hi : Int) (v : Int) : Option Int := if lo ≤ v ∧ v ≤ hi then some v else none

def intBits (bits : Nat) : Column := fun s =>
  ((intIn s).bind (within (-2 ^ (bits - 1)) (2 ^ (bits - 1) - 1))).map intOut

/-- A numeric without exponent. -/
def numeric : Column := fun s =>
  match decIn s with
  | some (neg, n, d) =>
    if s.all notE then some (numericOut (.dec neg n (Nat.toDigits 10 d).length.pred)) else none
  | none => none

def int2vector : Column := fun s => (vectorIn s).map vectorOut

def intRange : Column := fun s => (rangeIn s).map rangeOut

/-- A range whose bounds go through the functions of the type of the bounds. -/
def rangeOf (col : Column) : Column := fun s =>
  match textRangeIn s with
  | some (.span lo hi) =>
    match elems col [lo.map (·.1), hi.map (·.1)] with
    | some [a, b] => some (textRangeOut (.span (a.map fun t => (t, (lo.map (·.2)).getD false))
        (b.map fun t => (t, (hi.map (·.2)).getD false))))
    | _ => none
  | some .empty => some b!"empty"
  | none => none

/-- boolean: a prefix of `true` or `false`. -/
def boolean : Column := fun s =>
  if s.length = 0 then none
  else if s.isPrefixOf b!"true" then some (boolOut true)
  else if s.isPrefixOf b!"false" then some (boolOut false)
  else none

def isBit (c : Char) : Bool := c = '0' || c = '1'

def bit1 : Column := fun s => if s.length = 1 ∧ s.all isBit then some s else none

def varbit : Column := fun s => if s.all isBit then some s else none

/-- bytea: the hex format. -/
def bytea : Column := fun s => (byteaIn s).map byteaOut

/-- uuid: eight, four, four, four and twelve digits; lower case comes back. -/
def uuid : Column := fun s =>
  let t := s.map lower
  if (splitAt '-' t).map List.length = [8, 4, 4, 4, 12] ∧
      (t.all fun c => c = '-' || (hexVal c).isSome) then some t else none

/-- The order of the keys of an hstore: by length, then by bytes (hstore_io.c, comparePairs). -/
def keyLe (a b : Bytes) : Bool := a.length < b.length || a.length == b.length && !(b < a)

def keyInsert (e : Bytes × Option Bytes) : List (Bytes × Option Bytes) → List (Bytes × Option Bytes)
  | [] => [e]
  | x :: r => if keyLe e.1 x.1 then e :: x :: r else x :: keyInsert e r

def hstore : Column := fun s => (hstoreIn s).map fun es => hstoreOut (es.foldr keyInsert [])

def date : Column := fun s => (dateIn s).map dateOut

def time : Column := fun s => (clockIn s).map clockOut

def timetz : Column := fun s => (timetzIn s).map fun v => timetzOut v.1 v.2

def timestamp : Column := fun s => (timestampIn s).map fun v => timestampOut v.1 v.2

/-- The next day. -/
def nextDay (d : Date) : Date :=
  if d.day < monthLength d.year d.month then { d with day := d.day + 1 }
  else if d.month < 12 then { d with month := d.month + 1, day := 1 }
  else { year := d.year + 1, month := 1, day := 1 }

/-- The day, or the next one. -/
def dayAs (next : Bool) (b : Bytes × Bool) : Option (Option Bytes) :=
  (dateIn b.1).map fun d => some (dateOut (if b.2 = next then nextDay d else d))

def dayBound (next : Bool) : Option (Bytes × Bool) → Option (Option Bytes)
  | none => some none
  | some b => dayAs next b

/-- daterange: the lower bound is made to belong to the range, the upper not to (daterange_canonical). -/
def daterange : Column := fun s =>
  match textRangeIn s with
  | some (.span lo hi) =>
    match dayBound false lo, dayBound true hi with
    | some a, some b => some (textRangeOut (.span (a.map (·, true)) (b.map (·, false))))
    | _, _ => none
  | some .empty => some b!"empty"
  | none => none

def money : Column := fun s => (cashIn s).map cashOut

/-- inet and cidr, for addresses in the output format: inet is sent without the length of the prefix if that is the
length of the address. -/
def cidr : Column := some

def inet : Column := fun s =>
  let all := if s.contains ':' then b!"/128" else b!"/32"
  some (if all.isSuffixOf s then s.take (s.length - all.length) else s)

/-- macaddr and macaddr8: pairs of digits and colons. -/
def mac (n : Nat) : Column := fun s =>
  let t := s.map lower
  if (splitAt ':' t).map List.length = List.replicate n 2 ∧ (t.all fun c => c = ':' || (hexVal c).isSome) then some t
  else none

/-- float4 and float8: the shortest decimal that is read as the same number comes back; `parseFl` and `fmtFloat`
are proved to read and to write so (C71). -/
def float (f : FFmt) : Column := fun s =>
  match parseFl f s with
  | .ok v => some (fmtFloat f v)
  | _ => none

def isNum (c : Char) : Bool := c.isDigit || c = '.' || c = '-' || c = '+' || c = 'e' || c = 'E'

/-- Points, segments, lines, paths and polygons in the output format: every number in the text is read and
written. -/
def nums : Nat → Bytes → Option Bytes
  | 0, _ => none
  | _ + 1, [] => some []
  | n + 1, c :: r =>
    if isNum c then
      match float double ((c :: r).takeWhile isNum), nums n ((c :: r).dropWhile isNum) with
      | some t, some r' => some (t ++ r')
      | _, _ => none
    else (nums n r).map (c :: ·)

def shape : Column := fun s => nums (s.length + 1) s

/-- Finite numbers in order. -/
def flLe : Fl → Fl → Bool
  | .fin false x, .fin false y => x ≤ y
  | .fin true x, .fin true y => y ≤ x
  | .fin true _, .fin false _ => true
  | .fin false x, .fin true y => x = 0 && y = 0
  | _, _ => false

def flMax (a b : Fl) : Fl := if flLe a b then b else a
def flMin (a b : Fl) : Fl := if flLe a b then a else b

/-- Two points in parentheses. -/
def boxIn (s : Bytes) : Option (List Fl) :=
  match (splitAt ',' (s.filter fun c => c ≠ '(' ∧ c ≠ ')')).map (parseFl double) with
  | [.ok a, .ok b, .ok c, .ok d] => some [a, b, c, d]
  | _ => none

def point (x y : Fl) : Bytes := '(' :: fmtFloat double x ++ [','] ++ fmtFloat double y ++ [')']

/-- box: the upper right corner comes first (box_in). -/
def box : Column := fun s =>
  match boxIn s with
  | some [a, b, c, d] => some (point (flMax a c) (flMax b d) ++ [','] ++ point (flMin a c) (flMin b d))
  | _ => none

def all : List (Option Bytes) → Option (List Bytes)
  | [] => some []
  | some x :: r => (all r).map (x :: ·)
  | none :: _ => none

/-- box[]: the elements are separated by semicolons, and none of the tests is NULL. -/
def boxarr : Column := fun s =>
  if s = b!"{}" then some s
  else
    match s with
    | '{' :: r =>
      if r.getLast? = some '}' then
        (all ((splitAt ';' r.dropLast).map box)).map fun xs => '{' :: joinWith b!";" xs ++ ['}']
      else none
    | _ => none

/-- jsonb is sent with a space after every comma and colon that is not in a string. -/
def jsonbGo (inStr esc : Bool) : Bytes → Bytes
  | [] => []
  | c :: r =>
    if inStr then c :: jsonbGo (c ≠ '"' || esc) (c = '\\' && !esc) r
    else if isSpace c then jsonbGo false false r
    else if c = '"' then c :: jsonbGo true false r
    else if c = ',' ∨ c = ':' then c :: ' ' :: jsonbGo false false r
    else c :: jsonbGo false false r

def jsonb : Column := fun s => some (jsonbGo false false s)

end Verif.Conform.Codec
