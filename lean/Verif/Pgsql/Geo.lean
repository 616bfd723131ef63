import Verif.Pgsql.Codecs
/-
Model of the text codecs of package `pgsql`, part 4: the geometric types (point.go, pointarr.go,
lseg.go, lsegarr.go, line.go, linearr.go, box.go, boxarr.go, path.go, patharr.go, polygon.go,
polygonarr.go) with their parsers in convert_util.go:301-605.

Coordinates are left abstract: `NumCodec` stands for `strconv.AppendFloat(_, x, 'f', -1, 64)` and
`strconv.ParseFloat(_, 64)`.

Parsers: `none` is a panic (slice bounds or array index out of range).  Loops that move the loop
variable forward are recursions with a number of bytes to pass over, as in `Model.lean`.
-/
namespace Verif.Pgsql

open Verif

/-- How numbers are written and read. -/
structure NumCodec (F : Type) where
  fmt : F → Bytes
  parse : Bytes → SR F

/-- A point as two texts. -/
abbrev PtTxt := Bytes × Bytes

/-! ### Parsers -/

/-- The inner loop for a point (convert_util.go:454-463, also 309-318, 486-495 and with other closing
characters 528-537) over `a[j:]`.  `cur` is `a[i+1:j]`, `o` the offset of `j` and `k` the offset of
`i`, both from the byte after the opening parenthesis, so that `k` bytes are passed over. -/
def ptLoop (close : Char → Bool) (p : PtTxt) (cur : Bytes) (o k : Nat) : Bytes → PtTxt × Nat
  | [] => (p, k)
  | c :: r =>
    if c = ',' then ptLoop close (cur, p.2) [] (o + 1) (o + 1) r
    else if close c then ((p.1, cur), o + 1)
    else ptLoop close p (cur ++ [c]) (o + 1) k r

/-- The closing character of a point. -/
def isRParen (c : Char) : Bool := c = ')'

/-- The loop of `pgParsePointList` (convert_util.go:451-466). -/
def ptListLoop : Nat → Bytes → List PtTxt
  | _, [] => []
  | n + 1, _ :: r => ptListLoop n r
  | 0, c :: r =>
    if c = '(' then
      (ptLoop isRParen ([], []) [] 0 0 r).1 :: ptListLoop (ptLoop isRParen ([], []) [] 0 0 r).2 r
    else ptListLoop 0 r

/-- `pgParsePointList` (convert_util.go:450-468). -/
def parsePointList (a : Bytes) : List PtTxt := ptListLoop 0 a

/-- `pgParsePolygon` (convert_util.go:471-474). -/
def parsePolygon (a : Bytes) : Option (List PtTxt) := do
  let a ← dropEnds a
  return parsePointList a

/-- `pgParsePath` (convert_util.go:512-516). -/
def parsePath (a : Bytes) : Option (List PtTxt × Bool) := do
  let c ← a.head?
  let a ← dropEnds a
  return (parsePointList a, c = '(')

/-- `pgParseLseg` (convert_util.go:302-324): its loops are those of `pgParsePointList`, with an array
for two points. -/
def parseLseg (a : Bytes) : Option (PtTxt × PtTxt) := do
  let a ← dropEnds a
  match ptListLoop 0 a with
  | [] => return (([], []), ([], []))
  | [p] => return (p, ([], []))
  | [p, q] => return (p, q)
  | _ => none

/-- The inner loop of `pgParsePointArray` (convert_util.go:429-438). `cur` is `a[i+1:j]`, so
`a[i+2:j]` is its tail. -/
def ptArrInner (p : PtTxt) (cur : Bytes) (o k : Nat) : Bytes → Option (PtTxt × Nat)
  | [] => some (p, k)
  | c :: r =>
    if c = ',' then
      if cur.length = 0 then none else ptArrInner (cur.tail, p.2) [] (o + 1) (o + 1) r
    else if c = ')' then some ((p.1, cur), o + 1)
    else ptArrInner p (cur ++ [c]) (o + 1) k r

/-- `a[i+1:i+2]` and the inner loop from `a[i+2]`. -/
def ptArrStart : Bytes → Option (PtTxt × Nat)
  | [] => some (([], []), 0)
  | c :: r => ptArrInner ([], []) [c] 1 0 r

/-- The loop of `pgParsePointArray` (convert_util.go:426-445). -/
def ptArrLoop : Nat → Bytes → Option (List PtTxt)
  | _, [] => some []
  | n + 1, _ :: r => ptArrLoop n r
  | 0, c :: r =>
    if c = '"' then
      match ptArrStart r with
      | none => none
      | some x => consO x.1 (ptArrLoop (x.2 + 2) r)
    else if c = 'N' then consO ([], []) (ptArrLoop 4 r)
    else ptArrLoop 0 r

/-- `pgParsePointArray` (convert_util.go:424-447). -/
def parsePointArray (a : Bytes) : Option (List PtTxt) := do
  let a ← dropEnds a
  ptArrLoop 0 a

/-- Setting `lseg[n][0]` and `lseg[n][1]`; `n` is false for 0. -/
def setX (l : PtTxt × PtTxt) (n : Bool) (s : Bytes) : PtTxt × PtTxt :=
  if n then (l.1, (s, l.2.2)) else ((s, l.1.2), l.2)
def setY (l : PtTxt × PtTxt) (n : Bool) (s : Bytes) : PtTxt × PtTxt :=
  if n then (l.1, (l.2.1, s)) else ((l.1.1, s), l.2)

/-- The inner loop of `pgParseLsegArray` (convert_util.go:335-350) over `a[j:]`. `cur` is `a[i:j]`, `o`
and `k` are the offsets of `j` and `i` from the byte after the quote.  Returns the segment and the final
offset of `i`. -/
def lsegInner (l : PtTxt × PtTxt) (n : Bool) (cur : Bytes) (o k : Nat) :
    Bytes → (PtTxt × PtTxt) × Nat
  | [] => (l, k)
  | c :: r =>
    if c = ',' then lsegInner (setX l n cur) n [] (o + 1) (o + 1) r
    else if c = ')' then
      if n then lsegInner (setY l n cur) n [c] (o + 1) o r
      else
        match r with
        | _ :: _ :: d :: r' => lsegInner (setY l n cur) true [d] (o + 4) (o + 3) r'
        | _ => (setY l n cur, o + 3)
    else if c = ']' then (l, o)
    else lsegInner l n (cur ++ [c]) (o + 1) k r

/-- The loop of `pgParseLsegArray` (convert_util.go:329-357). After the inner loop `i` is the byte at
the returned offset, `i += 2` and the loop's `i++` make it three further. -/
def lsegArrLoop : Nat → Bytes → List (PtTxt × PtTxt)
  | _, [] => []
  | n + 1, _ :: r => lsegArrLoop n r
  | 0, c :: r =>
    if c = '"' then
      (lsegInner (([], []), ([], [])) false [] 2 2 (r.drop 2)).1 ::
        lsegArrLoop ((lsegInner (([], []), ([], [])) false [] 2 2 (r.drop 2)).2 + 3) r
    else if c = 'N' then (([], []), ([], [])) :: lsegArrLoop 4 r
    else lsegArrLoop 0 r

/-- `pgParseLsegArray` (convert_util.go:327-359). -/
def parseLsegArray (a : Bytes) : Option (List (PtTxt × PtTxt)) := do
  let a ← dropEnds a
  return lsegArrLoop 0 a

/-- The loops of `pgParseLine` (convert_util.go:364-376) after the braces are dropped. -/
def lineLoop (a : Bytes) : Bytes × Bytes × Bytes :=
  match a.dropWhile (· ≠ ',') with
  | [] => ([], [], [])
  | _ :: t =>
    match t.dropWhile (· ≠ ',') with
    | [] => (a.takeWhile (· ≠ ','), [], [])
    | _ :: u => (a.takeWhile (· ≠ ','), t.takeWhile (· ≠ ','), u)

/-- `pgParseLine` (convert_util.go:362-378). -/
def parseLine (a : Bytes) : Option (Bytes × Bytes × Bytes) := do
  let a ← dropEnds a
  return lineLoop a

/-- `line[n] = s`; `none` for an index out of range. -/
def setLine (l : Bytes × Bytes × Bytes) (n : Nat) (s : Bytes) : Option (Bytes × Bytes × Bytes) :=
  match n with
  | 0 => some (s, l.2.1, l.2.2)
  | 1 => some (l.1, s, l.2.2)
  | 2 => some (l.1, l.2.1, s)
  | _ => none

/-- The inner loop of `pgParseLineArray` (convert_util.go:389-399), as `lsegInner`. -/
def lineInner (l : Bytes × Bytes × Bytes) (n : Nat) (cur : Bytes) (o k : Nat) :
    Bytes → Option ((Bytes × Bytes × Bytes) × Nat)
  | [] => some (l, k)
  | c :: r =>
    if c = ',' then
      match setLine l n cur with
      | none => none
      | some l' => lineInner l' (n + 1) [] (o + 1) (o + 1) r
    else if c = '}' then some ((l.1, l.2.1, cur), o)
    else lineInner l n (cur ++ [c]) (o + 1) k r

/-- The loop of `pgParseLineArray` (convert_util.go:383-406). -/
def lineArrLoop : Nat → Bytes → Option (List (Bytes × Bytes × Bytes))
  | _, [] => some []
  | n + 1, _ :: r => lineArrLoop n r
  | 0, c :: r =>
    if c = '"' then
      match lineInner ([], [], []) 0 [] 1 1 (r.drop 1) with
      | none => none
      | some x => consO x.1 (lineArrLoop (x.2 + 3) r)
    else if c = 'N' then consO ([], [], []) (lineArrLoop 4 r)
    else lineArrLoop 0 r

/-- `pgParseLineArray` (convert_util.go:381-408). -/
def parseLineArray (a : Bytes) : Option (List (Bytes × Bytes × Bytes)) := do
  let a ← dropEnds a
  lineArrLoop 0 a

/-- What opens and closes a point in `pgParsePolygonArray` and `pgParsePathArray`. -/
structure PtDelims where
  opens : Char → Bool
  closes : Char → Bool

def polyDelims : PtDelims := ⟨fun c => c = '(', isRParen⟩
def pathDelims : PtDelims := ⟨fun c => c = '(' || c = '[', fun c => c = ']' || c = ')'⟩

/-- The middle loop (convert_util.go:483-502, 525-544) over `a[j:]`: `some` of the points and the
number of bytes up to and including the closing quote, `none` if there is no closing quote. -/
def polyInner (d : PtDelims) (o : Nat) : Nat → Bytes → Option (List PtTxt × Nat)
  | _, [] => none
  | n + 1, _ :: r => polyInner d (o + 1) n r
  | 0, c :: r =>
    if d.opens c then
      (polyInner d (o + 1) (ptLoop d.closes ([], []) [] 0 0 r).2 r).map fun x =>
        ((ptLoop d.closes ([], []) [] 0 0 r).1 :: x.1, x.2)
    else if c = '"' then some ([], o + 1)
    else polyInner d (o + 1) 0 r

/-- A slice that was only appended to: nil if nothing was. -/
def nilIfEmpty {α : Type} (xs : List α) : Option (List α) := if xs.length = 0 then none else some xs

/-- The outer loop of `pgParsePolygonArray` and `pgParsePathArray` (convert_util.go:480-507,
522-549). -/
def polyArrLoop (d : PtDelims) : Nat → Bytes → List (Option (List PtTxt))
  | _, [] => []
  | n + 1, _ :: r => polyArrLoop d n r
  | 0, c :: r =>
    if c = '"' then
      match polyInner d 1 0 (r.drop 1) with
      | some x => nilIfEmpty x.1 :: polyArrLoop d x.2 r
      | none => polyArrLoop d 0 r
    else if c = 'N' then none :: polyArrLoop d 4 r
    else polyArrLoop d 0 r

/-- `pgParsePolygonArray` (convert_util.go:477-509). -/
def parsePolygonArray (a : Bytes) : Option (List (Option (List PtTxt))) := do
  let a ← dropEnds a
  return polyArrLoop polyDelims 0 a

/-- `pgParsePathArray` (convert_util.go:519-551). -/
def parsePathArray (a : Bytes) : Option (List (Option (List PtTxt))) := do
  let a ← dropEnds a
  return polyArrLoop pathDelims 0 a

/-- The loop of `pgParseBox` and `pgParseBoxArray` (convert_util.go:558-574, 587-603) over `a[i:]`.
`cur` is `a[n:i]`, `first` tells that `n` is 0.  After a closing parenthesis the next element starts
three bytes on, beyond the end if there are fewer than two bytes left: then `a[n:]` panics. -/
def boxLoop (first : Bool) (cur : Bytes) : Bytes → Option (List Bytes)
  | [] => some (if first then [] else [cur])
  | c :: r =>
    if c = ',' then consO cur (boxLoop false [] r)
    else if c = ')' then
      match r with
      | _ :: _ :: r' => consO cur (boxLoop false [] r')
      | _ => none
    else boxLoop first (cur ++ [c]) r

/-- `pgParseBox` (convert_util.go:554-576). -/
def parseBox (a : Bytes) : Option (List Bytes) := do
  let a ← dropEnds a
  boxLoop true [] a

/-- `pgParseBoxArray` (convert_util.go:579-605). -/
def parseBoxArray (a : Bytes) : Option (List Bytes) :=
  if a.length = 2 then some []
  else do
    let a ← dropEnds a
    let a ← dropEnds a
    boxLoop true [] a

/-! ### Codecs -/

section
variable {F : Type} (nc : NumCodec F)

/-- `(x,y)`. -/
def ptText (p : F × F) : Bytes := ['('] ++ nc.fmt p.1 ++ [','] ++ nc.fmt p.2 ++ [')']

/-- Two `ParseFloat` calls. -/
def scanPt (p : PtTxt) : SR (F × F) :=
  (nc.parse p.1).bind fun x => (nc.parse p.2).map fun y => (x, y)

/-- `pointFromFloat64Array2.Value` (point.go:23-32). -/
def pointValue (p : F × F) : Bytes := ptText nc p

/-- `pointToFloat64Array2.Scan` (point.go:38-58). `pgParsePoint` has the same body as `pgParseRange`. -/
def pointScan : F × F → Option Bytes → SR (F × F) :=
  scanKeep fun b => (ofParse (parseRange b)).bind (scanPt nc)

/-- `pointArrayFromFloat64Array2Slice.Value` (pointarr.go:23-47); the size is a capacity only. -/
def pointArrValue : Option (List (F × F)) → Option Bytes :=
  arrValue fun p => ['"'] ++ ptText nc p ++ ['"']

/-- `pointArrayToFloat64Array2Slice.Scan` (pointarr.go:53-74). -/
def pointArrScan : Option (List (F × F)) → Option Bytes → SR (Option (List (F × F))) :=
  scanKeep fun b => ((ofParse (parsePointArray b)).bind (mapRes (scanPt nc))).map some

/-- `lsegFromFloat64Array2Array2.Value` (lseg.go:23-36). -/
def lsegValue (l : (F × F) × F × F) : Bytes :=
  ['['] ++ ptText nc l.1 ++ [','] ++ ptText nc l.2 ++ [']']

/-- Four `ParseFloat` calls. -/
def scanLseg (l : PtTxt × PtTxt) : SR ((F × F) × F × F) :=
  (scanPt nc l.1).bind fun p => (scanPt nc l.2).map fun q => (p, q)

/-- `lsegToFloat64Array2Array2.Scan` (lseg.go:42-70). -/
def lsegScan : (F × F) × F × F → Option Bytes → SR ((F × F) × F × F) :=
  scanKeep fun b => (ofParse (parseLseg b)).bind (scanLseg nc)

/-- `lsegArrayFromFloat64Array2Array2Slice.Value` (lsegarr.go:23-51). -/
def lsegArrValue : Option (List ((F × F) × F × F)) → Option Bytes :=
  arrValue fun l => ['"'] ++ lsegValue nc l ++ ['"']

/-- `lsegArrayToFloat64Array2Array2Slice.Scan` (lsegarr.go:57-84). -/
def lsegArrScan : Option (List ((F × F) × F × F)) → Option Bytes →
    SR (Option (List ((F × F) × F × F))) :=
  scanKeep fun b => ((ofParse (parseLsegArray b)).bind (mapRes (scanLseg nc))).map some

/-- `lineFromFloat64Array3.Value` (line.go:23-34). -/
def lineValue (l : F × F × F) : Bytes :=
  ['{'] ++ nc.fmt l.1 ++ [','] ++ nc.fmt l.2.1 ++ [','] ++ nc.fmt l.2.2 ++ ['}']

/-- Three `ParseFloat` calls. -/
def scanLine (l : Bytes × Bytes × Bytes) : SR (F × F × F) :=
  (nc.parse l.1).bind fun x => (nc.parse l.2.1).bind fun y => (nc.parse l.2.2).map fun z => (x, y, z)

/-- `lineToFloat64Array3.Scan` (line.go:40-64). -/
def lineScan : F × F × F → Option Bytes → SR (F × F × F) :=
  scanKeep fun b => (ofParse (parseLine b)).bind (scanLine nc)

/-- `lineArrayFromFloat64Array3Slice.Value` (linearr.go:23-49). -/
def lineArrValue : Option (List (F × F × F)) → Option Bytes :=
  arrValue fun l => ['"'] ++ lineValue nc l ++ ['"']

/-- `lineArrayToFloat64Array3Slice.Scan` (linearr.go:55-79). -/
def lineArrScan : Option (List (F × F × F)) → Option Bytes → SR (Option (List (F × F × F))) :=
  scanKeep fun b => ((ofParse (parseLineArray b)).bind (mapRes (scanLine nc))).map some

/-- The points of a path or polygon with delimiters around them; the closing one replaces the last
comma, or the opening one if there are no points (path.go:41-52, polygon.go:32-43, patharr.go:50-60,
polygonarr.go:50-60). -/
def ptsText (o c : Char) (ps : List (F × F)) : Bytes :=
  (o :: ps.flatMap fun p => ptText nc p ++ [',']).dropLast ++ [c]

/-- `pathFromFloat64Array2Slice.Value` (path.go:32-54). -/
def pathValue : Option (List (F × F)) → Option Bytes
  | none => none
  | some ps => if ps.length = 0 then none else some (ptsText nc '[' ']' ps)

/-- `pathToFloat64Array2Slice.Scan` (path.go:60-87). -/
def pathScan : Option (List (F × F)) → Option Bytes → SR (Option (List (F × F))) :=
  scanReset fun b => (ofParse (parsePath b)).bind fun x => mapRes (scanPt nc) x.1

/-- `polygonFromFloat64Array2Slice.Value` (polygon.go:23-45). -/
def polygonValue : Option (List (F × F)) → Option Bytes
  | none => none
  | some ps => if ps.length = 0 then none else some (ptsText nc '(' ')' ps)

/-- `polygonToFloat64Array2Slice.Scan` (polygon.go:51-78). -/
def polygonScan : Option (List (F × F)) → Option Bytes → SR (Option (List (F × F))) :=
  scanReset fun b => (ofParse (parsePolygon b)).bind (mapRes (scanPt nc))

/-- An element of a path[] or polygon[] (patharr.go:45-61, polygonarr.go:45-61). For an empty slice
the opening delimiter is overwritten. -/
def ptsElem (o c : Char) : Option (List (F × F)) → Bytes
  | none => b!"NULL"
  | some ps => ['"'] ++ ptsText nc o c ps ++ ['"']

/-- `pathArrayFromFloat64Array2SliceSlice.Value` (patharr.go:23-66). The capacity is not negative: an
empty element takes 1 from the 4 bytes counted for it. -/
def pathArrValue : Option (List (Option (List (F × F)))) → Option Bytes :=
  arrValue (ptsElem nc '[' ']')

/-- `polygonArrayFromFloat64Array2SliceSlice.Value` (polygonarr.go:23-66). -/
def polygonArrValue : Option (List (Option (List (F × F)))) → Option Bytes :=
  arrValue (ptsElem nc '(' ')')

/-- An element of the result: nil stays nil (patharr.go:84-104, polygonarr.go:84-104). -/
def scanPts : Option (List PtTxt) → SR (Option (List (F × F)))
  | none => .ok none
  | some ps => (mapRes (scanPt nc) ps).map some

/-- `pathArrayToFloat64Array2SliceSlice.Scan` (patharr.go:72-109). -/
def pathArrScan : Option (List (Option (List (F × F)))) → Option Bytes →
    SR (Option (List (Option (List (F × F))))) :=
  scanReset fun b => (ofParse (parsePathArray b)).bind (mapRes (scanPts nc))

/-- `polygonArrayToFloat64Array2SliceSlice.Scan` (polygonarr.go:72-109). -/
def polygonArrScan : Option (List (Option (List (F × F)))) → Option Bytes →
    SR (Option (List (Option (List (F × F))))) :=
  scanReset fun b => (ofParse (parsePolygonArray b)).bind (mapRes (scanPts nc))

/-- `boxFromFloat64Array2Array2.Value` (box.go:23-37). -/
def boxValue (b : (F × F) × F × F) : Bytes :=
  ['('] ++ ptText nc b.1 ++ [','] ++ ptText nc b.2 ++ [')']

/-- `boxToFloat64Array2Array2.Scan` (box.go:43-78): fewer than four elements are a panic, unless one of
those there are is not a number; more are ignored. -/
def scanBox : List Bytes → SR ((F × F) × F × F)
  | x1 :: y1 :: x2 :: y2 :: _ => scanLseg nc ((x1, y1), (x2, y2))
  | xs => (mapRes nc.parse xs).bind fun _ => .panic

def boxScan : (F × F) × F × F → Option Bytes → SR ((F × F) × F × F) :=
  scanKeep fun b => (ofParse (parseBox b)).bind (scanBox nc)

/-- A box in an array (boxarr.go:33-42). -/
def boxElem (b : (F × F) × F × F) : Bytes := ptText nc b.1 ++ [','] ++ ptText nc b.2

/-- `boxArrayFromFloat64Array2Array2Slice.Value` (boxarr.go:23-48). -/
def boxArrValue : Option (List ((F × F) × F × F)) → Option Bytes
  | none => none
  | some bs =>
    if bs.length = 0 then some b!"{}"
    else setLast '}' ('{' :: bs.flatMap fun b => boxElem nc b ++ [';'])

/-- Four elements at a time, `len(elems) / 4` times (boxarr.go:65-91). -/
def scanBoxes : List Bytes → SR (List ((F × F) × F × F))
  | x1 :: y1 :: x2 :: y2 :: r =>
    (scanLseg nc ((x1, y1), (x2, y2))).bind fun b => (scanBoxes r).map (b :: ·)
  | _ => .ok []

/-- `boxArrayToFloat64Array2Array2Slice.Scan` (boxarr.go:54-95). -/
def boxArrScan : Option (List ((F × F) × F × F)) → Option Bytes →
    SR (Option (List ((F × F) × F × F))) :=
  scanReset fun b => (ofParse (parseBoxArray b)).bind (scanBoxes nc)

end

end Verif.Pgsql
