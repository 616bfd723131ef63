import Verif.Pgsql.Codecs
/-
Dates and times: pgsql/convert_util.go:9-17, 201-203; date.go, datearr.go, daterange.go, daterangearr.go,
time.go, timearr.go, timetz.go, timetzarr.go, timestamparr.go, timestamptzarr.go, tsrange.go, tsrangearr.go,
tstzrange.go, tstzrangearr.go.

A `time.Time` is what its methods show in its own location: date, time of day and the offset of the zone
at that time.  Names of zones and monotonic readings are left out.  `time.Format` and `time.Parse` are modelled
for the five layouts of the package, after the Go standard library (version 1.23, as in go.mod): the layouts
are lists of chunks.
-/
namespace Verif.Pgsql

open Verif

structure Time where
  year : Int := 0
  month : Nat := 1
  day : Nat := 1
  hour : Nat := 0
  minute : Nat := 0
  second : Nat := 0
  nano : Nat := 0
  /-- seconds east of UTC -/
  offset : Int := 0
deriving Repr, DecidableEq

def leap (y : Int) : Bool := y % 4 = 0 && (y % 100 ≠ 0 || y % 400 = 0)

def daysIn (y : Int) (m : Nat) : Nat :=
  if m = 2 then if leap y then 29 else 28
  else if m = 4 ∨ m = 6 ∨ m = 9 ∨ m = 11 then 30
  else 31

/-- The fields of every `time.Time` are within these limits. -/
structure Time.Valid (t : Time) : Prop where
  month : 1 ≤ t.month ∧ t.month ≤ 12
  day : 1 ≤ t.day ∧ t.day ≤ daysIn t.year t.month
  hour : t.hour < 24
  minute : t.minute < 60
  second : t.second < 60
  nano : t.nano < 1000000000

/-- Days from January 1 of the year 1 to the first day of a month. -/
def daysTo (y : Int) : Nat → Nat
  | 0 => 0
  | m + 1 => if m = 0 then 0 else daysTo y m + daysIn y m

/-- Days from 0001-01-01 to the date. -/
def Time.days (t : Time) : Int :=
  365 * (t.year - 1) + (t.year - 1) / 4 - (t.year - 1) / 100 + (t.year - 1) / 400 +
    daysTo t.year t.month + (t.day - 1)

/-- Seconds from 0001-01-01 00:00:00 UTC. -/
def Time.seconds (t : Time) : Int :=
  t.days * 86400 + t.hour * 3600 + t.minute * 60 + t.second - t.offset

/-- `time.Time{}`. -/
def zeroTime : Time := { year := 1 }

/-- `t.IsZero()`. -/
def Time.isZero (t : Time) : Bool := t.seconds = 0 && t.nano = 0

/-! ### Layouts -/

inductive Chunk where
  /-- 2006 -/
  | year
  /-- 01 -/
  | month
  /-- 02 -/
  | day
  /-- 15 -/
  | hour
  /-- 04 -/
  | minute
  /-- 05 -/
  | second
  /-- .999 -/
  | frac
  /-- -07 -/
  | zoneHour
  /-- -07:00 -/
  | zoneColon
  | lit (c : Char)
deriving Repr, DecidableEq

abbrev Layout := List Chunk

/-- convert_util.go:10 -/
def dateLayout : Layout := [.year, .lit '-', .month, .lit '-', .day]
/-- convert_util.go:11 -/
def timeLayout : Layout := [.hour, .lit ':', .minute, .lit ':', .second, .frac]
/-- convert_util.go:12 -/
def timetzLayout : Layout := [.hour, .lit ':', .minute, .lit ':', .second, .frac, .zoneColon]
/-- convert_util.go:13 -/
def timestampLayout : Layout :=
  [.year, .lit '-', .month, .lit '-', .day, .lit ' ', .hour, .lit ':', .minute, .lit ':', .second, .frac]
/-- convert_util.go:14 -/
def timestamptzLayout : Layout :=
  [.year, .lit '-', .month, .lit '-', .day, .lit ' ', .hour, .lit ':', .minute, .lit ':', .second, .frac,
    .zoneHour]

/-- The last `w` decimal digits. -/
def fixedDigits : Nat → Nat → Bytes
  | 0, _ => []
  | w + 1, n => fixedDigits w (n / 10) ++ [Nat.digitChar (n % 10)]

/-- `appendInt(nil, x, w)`: at least `w` digits. -/
def appendInt (x : Int) (w : Nat) : Bytes :=
  (if x < 0 then ['-'] else []) ++
    if x.natAbs < 10 ^ w then fixedDigits w x.natAbs else Nat.toDigits 10 x.natAbs

/-- Without the zeros at the end. -/
def trimZeros (s : Bytes) : Bytes := (s.reverse.dropWhile (· = '0')).reverse

/-- `appendNano`: three digits of nine, trailing zeros removed, and the dot if no digit is left. -/
def formatFrac (nano : Nat) : Bytes :=
  let ds := trimZeros ((fixedDigits 9 nano).take 3)
  if ds.length = 0 then [] else '.' :: ds

/-- The minutes of the offset, truncated. -/
def zoneMinutes (offset : Int) : Int := offset.tdiv 60

def zoneSign (offset : Int) : Char := if zoneMinutes offset < 0 then '-' else '+'

def formatChunk (t : Time) : Chunk → Bytes
  | .year => appendInt t.year 4
  | .month => appendInt t.month 2
  | .day => appendInt t.day 2
  | .hour => appendInt t.hour 2
  | .minute => appendInt t.minute 2
  | .second => appendInt t.second 2
  | .frac => formatFrac t.nano
  | .zoneHour => zoneSign t.offset :: appendInt ((zoneMinutes t.offset).natAbs / 60 : Nat) 2
  | .zoneColon =>
    zoneSign t.offset :: appendInt ((zoneMinutes t.offset).natAbs / 60 : Nat) 2 ++ [':'] ++
      appendInt ((zoneMinutes t.offset).natAbs % 60 : Nat) 2
  | .lit c => [c]

/-- `t.Format(layout)`. -/
def Time.format (t : Time) (l : Layout) : Bytes := l.flatMap (formatChunk t)

/-- The number and the rest: `getnum(value, fixed)`, one or two digits. -/
def getnum (fixed : Bool) : Bytes → Option (Nat × Bytes)
  | [] => none
  | c :: r =>
    if isDig 10 c then
      match r with
      | d :: r' =>
        if isDig 10 d then some ((c.toNat - '0'.toNat) * 10 + (d.toNat - '0'.toNat), r')
        else if fixed then none else some (c.toNat - '0'.toNat, d :: r')
      | [] => if fixed then none else some (c.toNat - '0'.toNat, [])
    else none

/-- A number with an upper limit. -/
def getnumLt (fixed : Bool) (limit : Nat) (s : Bytes) : SR (Nat × Bytes) :=
  match getnum fixed s with
  | some (n, r) => if n < limit then .ok (n, r) else .err .time
  | none => .err .time

/-- `parseNanoseconds`: at most nine digits count. -/
def fracValue (ds : Bytes) : Nat :=
  Nat.ofDigitChars 10 (ds.take 9) 0 * 10 ^ (9 - (ds.take 9).length)

/-- The sign, the hours and the minutes of the offset. -/
def zoneValue (sign : Char) (hh mm : Bytes) : SR Int :=
  match getnum true hh, getnum true mm with
  | some (h, _), some (m, _) =>
    if h > 24 ∨ m > 60 then .err .time
    else if sign = '+' then .ok (((h * 60 + m) * 60 : Nat) : Int)
    else if sign = '-' then .ok (-(((h * 60 + m) * 60 : Nat) : Int))
    else .err .time
  | _, _ => .err .time

/-- One chunk of `time.Parse`: the fields so far, and the rest of the text. -/
def parseChunk (t : Time) (c : Chunk) (s : Bytes) : SR (Time × Bytes) :=
  match c with
  | .year =>
    match parseNat 10 (s.take 4) with
    | some y => if s.length < 4 then .err .time else .ok ({ t with year := y }, s.drop 4)
    | none => .err .time
  | .month => (getnumLt true 13 s).bind fun p =>
      if p.1 = 0 then .err .time else .ok ({ t with month := p.1 }, p.2)
  | .day => (getnumLt true 100 s).map fun p => ({ t with day := p.1 }, p.2)
  | .hour => (getnumLt false 24 s).map fun p => ({ t with hour := p.1 }, p.2)
  | .minute => (getnumLt true 60 s).map fun p => ({ t with minute := p.1 }, p.2)
  | .second => (getnumLt true 60 s).map fun p => ({ t with second := p.1 }, p.2)
  | .frac =>
    match s with
    | p :: d :: r =>
      if (p = '.' ∨ p = ',') ∧ isDig 10 d then
        .ok ({ t with nano := fracValue ((d :: r).takeWhile (isDig 10)) }, (d :: r).dropWhile (isDig 10))
      else .ok (t, s)
    | _ => .ok (t, s)
  | .zoneHour =>
    match s with
    | sg :: h :: h' :: r => (zoneValue sg [h, h'] b!"00").map fun o => ({ t with offset := o }, r)
    | _ => .err .time
  | .zoneColon =>
    match s with
    | sg :: h :: h' :: c :: m :: m' :: r =>
      if c = ':' then (zoneValue sg [h, h'] [m, m']).map fun o => ({ t with offset := o }, r) else .err .time
    | _ => .err .time
  | .lit c =>
    if c = ' ' then
      match s with
      | [] => .ok (t, [])
      | d :: r => if d = ' ' then .ok (t, r.dropWhile (· = ' ')) else .err .time
    else
      match s with
      | d :: r => if d = c then .ok (t, r) else .err .time
      | [] => .err .time

def parseChunks (t : Time) : Layout → Bytes → SR Time
  | [], s => if s.length = 0 then .ok t else .err .time
  | c :: l, s => (parseChunk t c s).bind fun p => parseChunks p.1 l p.2

/-- `time.Parse(layout, s)`; also `time.ParseInLocation(layout, s, loc)` for a location with offset 0. -/
def parseTime (l : Layout) (s : Bytes) : SR Time :=
  (parseChunks {} l s).bind fun t =>
    if t.day < 1 ∨ t.day > daysIn t.year t.month then .err .time else .ok t

/-! ### Arrays -/

/-- `dateArrayFromTimeSlice.Value` (datearr.go:23-39), `timeArrayFromTimeSlice.Value` (timearr.go:23-42),
`timetzArrayFromTimeSlice.Value` (timetzarr.go:23-42). The computed sizes are capacities only. -/
def timeArrValue (l : Layout) : Option (List Time) → Option Bytes := arrValue (·.format l)

/-- `dateArrayToTimeSlice.Scan` (datearr.go:45-66), `timeArrayToTimeSlice.Scan` (timearr.go:48-69),
`timetzArrayToTimeSlice.Scan` (timetzarr.go:48-69). -/
def timeArrScan (l : Layout) : Option (List Time) → Option Bytes → SR (Option (List Time)) :=
  scanReset fun b => (ofParse (parseCommaArray b)).bind (mapRes (parseTime l))

def quoted (s : Bytes) : Bytes := '"' :: (s ++ ['"'])

/-- `timestampArrayFromTimeSlice.Value` (timestamparr.go:23-44), `timestamptzArrayFromTimeSlice.Value`
(timestamptzarr.go:23-45). -/
def stampArrValue (l : Layout) : Option (List Time) → Option Bytes := arrValue fun t => quoted (t.format l)

/-- An element of timestamp[] (timestamparr.go:62-72): NULL leaves the zero time. -/
def stampElem (l : Layout) (s : Bytes) : SR Time :=
  if s.head? = some 'N' then .ok zeroTime else (ofParse (dropEnds s)).bind (parseTime l)

/-- `timestampArrayToTimeSlice.Scan` (timestamparr.go:50-77), `timestamptzArrayToTimeSlice.Scan`
(timestamptzarr.go:51-78). -/
def stampArrScan (l : Layout) : Option (List Time) → Option Bytes → SR (Option (List Time)) :=
  scanReset fun b => (ofParse (parseCommaArray b)).bind (mapRes (stampElem l))

/-! ### Ranges -/

/-- `tsRangeFromTimeArray2.Value` (tsrange.go:23-35), `tstzRangeFromTimeArray2.Value` (tstzrange.go:23-35). -/
def stampRangeValue (l : Layout) (v : Time × Time) : Bytes :=
  '[' :: quoted (v.1.format l) ++ [','] ++ quoted (v.2.format l) ++ [')']

/-- A bound (tsrange.go:51-57): absent leaves the zero time. -/
def stampBound (l : Layout) (s : Bytes) : SR Time :=
  if s.length > 0 then (ofParse (dropEnds s)).bind (parseTime l) else .ok zeroTime

/-- Both bounds. -/
def boundsBy (f : Bytes → SR Time) (p : Bytes × Bytes) : SR (Time × Time) :=
  (f p.1).bind fun lo => (f p.2).map fun hi => (lo, hi)

/-- `tsRangeToTimeArray2.Scan` (tsrange.go:41-69), `tstzRangeToTimeArray2.Scan` (tstzrange.go:41-69). -/
def stampRangeScan (l : Layout) : Time × Time → Option Bytes → SR (Time × Time) :=
  scanKeep fun b => (ofParse (parseRange b)).bind (boundsBy (stampBound l))

def quotedEsc (s : Bytes) : Bytes := ['\\', '"'] ++ s ++ ['\\', '"']

/-- An element of tsrange[] (tsrangearr.go:38-42). -/
def stampRangeElem (l : Layout) (v : Time × Time) : Bytes :=
  ['"', '['] ++ quotedEsc (v.1.format l) ++ [','] ++ quotedEsc (v.2.format l) ++ [')', '"']

/-- `tsRangeArrayFromTimeArray2Slice.Value` (tsrangearr.go:23-47), `tstzRangeArrayFromTimeArray2Slice.Value`
(tstzrangearr.go:23-47). -/
def stampRangeArrValue (l : Layout) : Option (List (Time × Time)) → Option Bytes := arrValue (stampRangeElem l)

/-- `s[2 : len(s)-2]`; `none` is the panic. -/
def dropEnds2 (s : Bytes) : Option Bytes :=
  if s.length < 4 then none else some ((s.drop 2).take (s.length - 4))

/-- A range in an array (tsrangearr.go:65-82): both bounds are cut, then parsed. -/
def stampRangeOf (l : Layout) (x : Option Bytes) : SR (Time × Time) :=
  (ofParse (parseRange (x.getD []))).bind fun p =>
  (ofParse (dropEnds2 p.1)).bind fun a =>
  (ofParse (dropEnds2 p.2)).bind fun b => boundsBy (parseTime l) (a, b)

/-- `tsRangeArrayToTimeArray2Slice.Scan` (tsrangearr.go:53-87), `tstzRangeArrayToTimeArray2Slice.Scan`
(tstzrangearr.go:53-87). -/
def stampRangeArrScan (l : Layout) : Option (List (Time × Time)) → Option Bytes →
    SR (Option (List (Time × Time))) :=
  scanReset fun b => (ofParse (parseQuotedStringArray b)).bind (mapRes (stampRangeOf l))

/-- `dateRangeFromTimeArray2.Value` (daterange.go:46-64): the zero time is no bound. -/
def dateRangeValue (v : Time × Time) : Bytes :=
  (if v.1.isZero then ['('] else '[' :: v.1.format dateLayout) ++ [','] ++
    (if v.2.isZero then [] else v.2.format dateLayout) ++ [')']

/-- A bound (daterange.go:80-84). -/
def dateBound (s : Bytes) : SR Time := if s.length > 0 then parseTime dateLayout s else .ok zeroTime

/-- `dateRangeToTimeArray2.Scan` (daterange.go:70-94). -/
def dateRangeScan : Time × Time → Option Bytes → SR (Time × Time) :=
  scanKeep fun b => (ofParse (parseRange b)).bind (boundsBy dateBound)

/-- `dateRangeArrayFromTimeArray2Slice.Value` (daterangearr.go:23-51). -/
def dateRangeArrValue : Option (List (Time × Time)) → Option Bytes :=
  arrValue fun v => ['"'] ++ dateRangeValue v ++ ['"']

/-- `dateRangeArrayToTimeArray2Slice.Scan` (daterangearr.go:57-90). NULL assigns `v.val`, the pointer in the
copy of the receiver. A NULL element makes `pgParseRange(nil)` panic. -/
def dateRangeArrScan : Option (List (Time × Time)) → Option Bytes → SR (Option (List (Time × Time))) :=
  scanKeep fun b => ((ofParse (parseQuotedStringArray b)).bind
    (mapRes fun x => (ofParse (parseRange (x.getD []))).bind (boundsBy dateBound))).map some

/-! ### Single values, which the driver hands over as `time.Time` -/

/-- The source of a date or time column: `lib/pq` decodes them to `time.Time`; text comes as bytes. -/
inductive TSrc where
  | null
  | time (t : Time)
  | text (b : Bytes)
deriving Repr, DecidableEq

/-- `dateToString.Scan` (date.go:40-47), `dateToByteSlice.Scan` (date.go:53-60): text gives nothing. -/
def dateToString : TSrc → Bytes
  | .time t => t.format dateLayout
  | _ => []

/-- `timeToString.Scan` (time.go:22-32) with `timeLayout`, `timetzToString.Scan` (timetz.go:22-32) with
`timetzLayout`; NULL leaves the destination. -/
def timeToString (l : Layout) (dest : Bytes) : TSrc → Bytes
  | .time t => t.format l
  | .text b => b
  | .null => dest

end Verif.Pgsql
