import Verif.Gosql.Model
/-
Model of package `filter` (filter/filter.go, filter/convenience.go) and of the ordinal
parameter table in gosql.go.

`α` is the type of the scalar values a caller may pass in an `interface{}` or put in a slice;
it is a parameter of the model: the code never looks inside such a value.
-/
namespace Verif.Filter

open Verif

/-- The four slice types accepted by the `IN` / `ANY` predicates
(filter/filter.go:176-186, 190-200; filter/convenience.go). -/
inductive SliceKind | int64 | int | int16 | string
deriving Repr, DecidableEq

/-- A Go `interface{}` value as far as `Constructor.Col` can tell values apart
(filter/filter.go:174-230): `nil`, a `bool`, one of the four slice types, anything else. -/
inductive Val (α : Type) where
  | nil
  | bool (b : Bool)
  | slice (k : SliceKind) (xs : List α)
  | other (a : α)
deriving Repr, DecidableEq

/-- An element of the `params` list of `sqlWriter` (filter/filter.go:17-18):
the compared value (filter.go:45), an element of an IN list (convenience.go:24),
a pgsql array valuer around a slice (convenience.go:88, 96, 107, 118, 129),
or a text-search query (filter.go:77). -/
inductive Param (α : Type) where
  | val (v : Val α)
  | elem (a : α)
  | arr (k : SliceKind) (xs : List α)
  | text (s : Bytes)
deriving Repr, DecidableEq

/-- The `sqlNode` implementations (filter/filter.go:28-107; filter/convenience.go:8-90). -/
inductive Node (α : Type) where
  | binary (col op : Bytes) (v : Val α)
  | unary (col pred : Bytes)
  | text (col s : Bytes)
  | and
  | or
  | lparen
  | rparen
  | isIn (col : Bytes) (xs : List α)
  | any (col : Bytes) (k : SliceKind) (xs : List α)
deriving Repr, DecidableEq

/-- `sqlNode.canAndOr` of each node type
(filter/filter.go:36, 55, 69, 84, 91, 98, 105; filter/convenience.go:14, 80). -/
def Node.canAndOr {α} : Node α → Bool
  | .and => false
  | .or => false
  | .lparen => false
  | _ => true

/-- The cast suffix stored in `sqlAny` (filter/convenience.go:92-134). -/
def castOf : SliceKind → Bytes
  | .int64 => b!"::int8[]"
  | .int => b!"::int4[]"
  | .int16 => b!"::int2[]"
  | .string => b!"::text[]"

/-- `sqlWriter` (filter/filter.go:12-19): text written so far, parameter position, params. -/
structure Writer (α : Type) where
  out : Bytes
  p : Nat
  params : List (Param α)

/-- `w.WriteString(s)`. -/
def Writer.str {α} (w : Writer α) (s : Bytes) : Writer α := { w with out := w.out ++ s }

/-- The sequence "write `OrdinalParameters[w.p]`, append a param, `w.p += 1`"
shared by the parameterised nodes. -/
def Writer.param {α} (w : Writer α) (v : Param α) : Option (Writer α) := do
  let o ← ordinalAt w.p
  return { out := w.out ++ o, p := w.p + 1, params := w.params ++ [v] }

/-- `strings.TrimSpace` on the set of characters `unicode.IsSpace` accepts below U+0100. -/
def isSpace (c : Char) : Bool :=
  c = ' ' || c = '\t' || c = '\n' || c = '\x0b' || c = '\x0c' || c = '\r' || c = '\u0085' || c = '\u00a0'

def trimLeft (s : Bytes) : Bytes := s.dropWhile isSpace
def trimSpace (s : Bytes) : Bytes := (trimLeft (trimLeft s).reverse).reverse

/-- `strings.Split(s, sep)` for a one-byte separator: always at least one piece. -/
def split (sep : Char) : Bytes → List Bytes
  | [] => [[]]
  | c :: cs =>
    if c = sep then [] :: split sep cs
    else match split sep cs with
      | [] => [[c]]
      | p :: ps => (c :: p) :: ps

/-- The loop over `list[1:]` in `toTSQuery` (filter/filter.go:549-553). -/
def tsRest : List Bytes → Bytes → Bytes
  | [], out => out
  | s :: ss, out => tsRest ss (if s ≠ [] then out ++ (b!" & " ++ s ++ b!":*") else out)

/-- `toTSQuery` (filter/filter.go:540-555). -/
def toTSQuery (str : Bytes) : Bytes :=
  match split ' ' (trimSpace str) with
  | [] => []
  | s :: ss => tsRest ss (if s ≠ [] then s ++ b!":*" else [])

/-- The loop over `n.vals` in `sqlIn.write` (filter/convenience.go:19-26);
`first` is `i == 0`. -/
def writeIn {α} : List α → Bool → Writer α → Option (Writer α)
  | [], _, w => some w
  | v :: vs, first, w => do
    let w := if first then w else w.str b!","
    let w ← w.param (.elem v)
    writeIn vs false w

/-- `sqlNode.write` of each node type (filter/filter.go:38-107; filter/convenience.go:16-90).
`none` is the panic on a parameter position outside the ordinal table. -/
def Node.write {α} (n : Node α) (w : Writer α) : Option (Writer α) :=
  match n with
  | .binary col op v => (((w.str col).str b!" ").str op |>.str b!" ").param (.val v)
  | .unary col pred => some (((w.str col).str b!" ").str pred)
  | .text col s => do
    let w ← ((w.str col).str b!" @@ to_tsquery('simple', ").param (.text (toTSQuery s))
    return w.str b!")"
  | .and => some (w.str b!" AND ")
  | .or => some (w.str b!" OR ")
  | .lparen => some (w.str b!"(")
  | .rparen => some (w.str b!")")
  | .isIn col xs => do
    let w ← writeIn xs true ((w.str col).str b!" IN (")
    return w.str b!")"
  | .any col k xs => do
    let w ← ((w.str col).str b!" = ANY(").param (.arr k xs)
    return (w.str (castOf k)).str b!")"

/-- The loop `for _, node := range f.where { node.write(&w) }` (filter/filter.go:482-484). -/
def writeNodes {α} : List (Node α) → Writer α → Option (Writer α)
  | [], w => some w
  | n :: ns, w => do
    let w ← n.write w
    writeNodes ns w

/-- Errors returned by the unmarshal methods: an unknown column key
(filter/filter.go:527-529), a value conversion error (filter.go:388-391) or a tokenizer
error (filter.go:359-362). -/
inductive Err where
  | unknownKey (key : Bytes)
  | convert (msg : Bytes)
  | token (msg : Bytes)
deriving Repr, DecidableEq

/-- `filter.Column` (filter/filter.go:126-134). -/
structure Column (α : Type) where
  name : Bytes
  convert : Option (Val α → Except Bytes (Val α)) := none
  nullable : Bool := false

/-- The `filter` struct (filter/filter.go:456-465). -/
structure FilterS (α : Type) where
  where_ : List (Node α) := []
  orderby : Bytes := []
  limit : Int64 := 0
  offset : Int64 := 0

/-- The `Constructor` struct (filter/filter.go:112-123). The `colmap` map is an association
list; only lookups are performed on it. -/
structure Cons (α : Type) where
  filter : FilterS α := {}
  colmap : List (Bytes × Column α) := []
  tscol : Bytes := []
  strict : Bool := false

namespace Cons
variable {α : Type}

/-- `Constructor.canAndOr` (filter/filter.go:143-145). -/
def canAndOr (c : Cons α) : Bool :=
  match c.filter.where_.getLast? with
  | none => false
  | some n => n.canAndOr

/-- `c.filter.where = append(c.filter.where, n)`. -/
def push (c : Cons α) (n : Node α) : Cons α :=
  { c with filter := { c.filter with where_ := c.filter.where_ ++ [n] } }

/-- `if c.canAndOr() { append sqlAnd{} }`. -/
def autoAnd (c : Cons α) : Cons α := if c.canAndOr then c.push .and else c

/-- `ColInInt64s`, `ColInInts`, `ColInInt16s`, `ColInStrings` (filter/convenience.go:31-69). -/
def colIn (c : Cons α) (column : Bytes) (xs : List α) : Cons α :=
  c.autoAnd.push (.isIn column xs)

/-- `ColAnyInt64s`, `ColAnyInts`, `ColAnyInt16s`, `ColAnyStrings` (filter/convenience.go:92-134). -/
def colAny (c : Cons α) (column : Bytes) (k : SliceKind) (xs : List α) : Cons α :=
  c.autoAnd.push (.any column k xs)

/-- `strings.ToUpper` restricted to ASCII letters (simplification: Unicode case mapping of
non-ASCII operator texts is not modelled). -/
def toUpper (s : Bytes) : Bytes := s.map Char.toUpper

/-- `Constructor.Col` (filter/filter.go:173-236). -/
def col (c : Cons α) (column op : Bytes) (value : Val α) : Cons α :=
  if toUpper op = b!"ANY" then
    match value with
    | .slice k xs => c.colAny column k xs
    | _ => c
  else if toUpper op = b!"IN" then
    match value with
    | .slice _ xs => c.colIn column xs
    | _ => c
  else
    let c := c.autoAnd
    match value with
    | .nil =>
      if op = b!"=" then c.push (.unary column b!"IS NULL")
      else if op = b!"<>" then c.push (.unary column b!"IS NOT NULL")
      else c
    | .bool true =>
      if op = b!"=" then c.push (.unary column b!"IS TRUE")
      else if op = b!"<>" then c.push (.unary column b!"IS NOT TRUE")
      else c
    | .bool false =>
      if op = b!"=" then c.push (.unary column b!"IS FALSE")
      else if op = b!"<>" then c.push (.unary column b!"IS NOT FALSE")
      else c
    | v => c.push (.binary column op v)

/-- `Constructor.TextSearch` (filter/filter.go:239-246). -/
def textSearch (c : Cons α) (value : Bytes) : Cons α :=
  if c.tscol.length > 0 then c.autoAnd.push (.text c.tscol value) else c

/-- The ", " / column / direction part common to `OrderBy` and `OrderByV2`
(filter/filter.go:286-295, 308-317). -/
def orderPrefix (o column : Bytes) (desc : Bool) : Bytes :=
  let o := if o.length > 0 then o ++ b!", " else o
  let o := o ++ column
  if desc then o ++ b!" DESC" else o ++ b!" ASC"

/-- `Constructor.OrderBy` (filter/filter.go:285-302). -/
def orderBy (c : Cons α) (column : Bytes) (desc nullsfirst : Bool) : Cons α :=
  let o := orderPrefix c.filter.orderby column desc
  let o := if nullsfirst then o ++ b!" NULLS FIRST" else o ++ b!" NULLS LAST"
  { c with filter := { c.filter with orderby := o } }

/-- `Constructor.OrderByV2` (filter/filter.go:307-326). -/
def orderByV2 (c : Cons α) (column : Bytes) (desc nullable nullsfirst : Bool) : Cons α :=
  let o := orderPrefix c.filter.orderby column desc
  let o := if nullable then
      (if nullsfirst then o ++ b!" NULLS FIRST" else o ++ b!" NULLS LAST") else o
  { c with filter := { c.filter with orderby := o } }

/-- `Constructor.Limit` (filter/filter.go:329-333). -/
def limit (c : Cons α) (count : Int64) : Cons α :=
  if count > 0 then { c with filter := { c.filter with limit := count } } else c

/-- `Constructor.Offset` (filter/filter.go:336-340). -/
def offset (c : Cons α) (start : Int64) : Cons α :=
  if start > 0 then { c with filter := { c.filter with offset := start } } else c

/-- `Constructor.Page` (filter/filter.go:343-347); int64 arithmetic wraps around. -/
def page (c : Cons α) (page : Int64) : Cons α :=
  if page > 0 ∧ c.filter.limit ≥ 0 then
    { c with filter := { c.filter with offset := c.filter.limit * (page - 1) } }
  else c

/-- Lookup `c.colmap[key]`. -/
def lookup (c : Cons α) (key : Bytes) : Option (Column α) :=
  (c.colmap.find? (fun e => e.1 = key)).map (·.2)

/-- The inner loop `for pos < end && str[pos] != ','` of `UnmarshalSort`
(filter/filter.go:417-419): the segment `str[start:pos]` and the rest `str[pos:]`. -/
def scanSeg : Bytes → Bytes × Bytes
  | [] => ([], [])
  | c :: cs => if c = ',' then ([], c :: cs) else
    let (a, b) := scanSeg cs
    (c :: a, b)

/-- `if desc { start += 1 }; key := str[start:pos]` (filter/filter.go:421-426). -/
def sortSegKey (desc : Bool) (seg : Bytes) : Bytes := if desc then seg.drop 1 else seg

/-- The outer loop of `UnmarshalSort` (filter/filter.go:414-434) over the remaining input
`str[start:]`. The first argument bounds the number of iterations (the loop advances by at
least one byte per iteration). -/
def sortLoop : Nat → Cons α → Bytes → Cons α × Option Err
  | 0, c, _ => (c, none)
  | _ + 1, c, [] => (c, none)
  | n + 1, c, x :: xs =>
    let (seg, rest) := scanSeg (x :: xs)
    let desc : Bool := x = '-'
    let key := sortSegKey desc seg
    if key.length > 0 then
      match c.lookup key with
      | some col => sortLoop n (c.orderByV2 col.name desc col.nullable false) (rest.drop 1)
      | none =>
        if c.strict then (c, some (.unknownKey key)) else sortLoop n c (rest.drop 1)
    else sortLoop n c (rest.drop 1)

/-- `Constructor.UnmarshalSort` (filter/filter.go:413-436). -/
def unmarshalSort (c : Cons α) (str : Bytes) : Cons α × Option Err :=
  sortLoop (str.length + 1) c str

end Cons

/-- FQL comparison operators (external package fql). -/
inductive Cmp | eq | ne | gt | lt | ge | le
deriving Repr, DecidableEq

/-- `cmpop2string` (filter/filter.go:558-565). -/
def cmpStr : Cmp → Bytes
  | .eq => b!"="
  | .ne => b!"<>"
  | .gt => b!">"
  | .lt => b!"<"
  | .ge => b!">="
  | .le => b!"<="

/-- Tokens delivered by the external FQL tokenizer; `none` as a rule value is `fql.Null`. -/
inductive Tok (α : Type) where
  | lparen
  | rparen
  | and
  | or
  | rule (key : Bytes) (cmp : Cmp) (val : Option (Val α))
deriving Repr, DecidableEq

namespace Cons
variable {α : Type}

/-- The loop of `UnmarshalFQL` (filter/filter.go:357-402). The token stream is an input
(the tokenizer is external code); `fin` is what `z.Next()` reports after the last token:
`none` for `fql.EOF`, otherwise a syntax error. -/
def fqlLoop (fin : Option Err) : Cons α → List (Tok α) → Cons α × Option Err
  | c, [] => (c, fin)
  | c, .lparen :: ts => fqlLoop fin (c.autoAnd.push .lparen) ts
  | c, .rparen :: ts => fqlLoop fin (c.push .rparen) ts
  | c, .and :: ts => fqlLoop fin (c.push .and) ts
  | c, .or :: ts => fqlLoop fin (c.push .or) ts
  | c, .rule key cmp val :: ts =>
    match c.lookup key with
    | some cl =>
      let v : Val α := val.getD .nil
      match cl.convert with
      | none => fqlLoop fin (c.col cl.name (cmpStr cmp) v) ts
      | some f =>
        match f v with
        | .error m => (c, some (.convert m))
        | .ok v => fqlLoop fin (c.col cl.name (cmpStr cmp) v) ts
    | none => if c.strict then (c, some (.unknownKey key)) else fqlLoop fin c ts

end Cons

/-- A call on a Constructor. A `nest` callback is represented by the list of calls it makes
on the same Constructor. -/
inductive Call (α : Type) where
  | col (column op : Bytes) (v : Val α)
  | colIn (column : Bytes) (xs : List α)
  | colAny (column : Bytes) (k : SliceKind) (xs : List α)
  | textSearch (s : Bytes)
  | and
  | or
  | andNest (nest : List (Call α))
  | orNest (nest : List (Call α))
  | orderBy (column : Bytes) (desc nullsfirst : Bool)
  | orderByV2 (column : Bytes) (desc nullable nullsfirst : Bool)
  | limit (n : Int64)
  | offset (n : Int64)
  | page (n : Int64)
  | strictSwitch
  | unmarshalSort (s : Bytes)
  | unmarshalFQL (ts : List (Tok α)) (fin : Option Err)

/-- `if c.canAndOr() { append sqlOr{} }` (filter/filter.go:271-273). -/
def Cons.autoOr {α} (c : Cons α) : Cons α := if c.canAndOr then c.push .or else c

mutual
/-- The effect of one call on the Constructor. `And`/`Or`: filter/filter.go:253-280;
`StrictSwitch`: filter.go:148. Errors of the unmarshal methods are returned to the caller and
do not undo the effect so far, hence only the state matters here. -/
def Call.run {α} : Call α → Cons α → Cons α
  | .col column op v, c => c.col column op v
  | .colIn column xs, c => c.colIn column xs
  | .colAny column k xs, c => c.colAny column k xs
  | .textSearch s, c => c.textSearch s
  | .and, c => c.autoAnd
  | .or, c => c.autoOr
  | .andNest nest, c => (runCalls nest (c.autoAnd.push .lparen)).push .rparen
  | .orNest nest, c => (runCalls nest (c.autoOr.push .lparen)).push .rparen
  | .orderBy column desc nf, c => c.orderBy column desc nf
  | .orderByV2 column desc nl nf, c => c.orderByV2 column desc nl nf
  | .limit n, c => c.limit n
  | .offset n, c => c.offset n
  | .page n, c => c.page n
  | .strictSwitch, c => { c with strict := !c.strict }
  | .unmarshalSort s, c => (c.unmarshalSort s).1
  | .unmarshalFQL ts fin, c => (c.fqlLoop fin ts).1
/-- A sequence of calls. -/
def runCalls {α} : List (Call α) → Cons α → Cons α
  | [], c => c
  | x :: xs, c => runCalls xs (x.run c)
end

/-- `strconv.FormatInt(n, 10)` for a positive int64. -/
def formatPos (n : Int64) : Bytes := itoa n.toInt.toNat

/-- The " WHERE " part of both ToSQL methods (filter/filter.go:479-485, 514-520). -/
def whereSQL {α} (f : FilterS α) (ppos : Nat) : Option (Writer α) :=
  let w : Writer α := ⟨[], ppos, []⟩
  if f.where_.length > 0 then writeNodes f.where_ (w.str b!" WHERE ") else some w

/-- `filter.ToSQL` (filter/filter.go:478-501); `none` is a panic. -/
def FilterS.toSQL {α} (f : FilterS α) (ppos : Nat) : Option (Bytes × List (Param α)) := do
  let w ← whereSQL f ppos
  let w := if f.orderby.length > 0 then (w.str b!" ORDER BY ").str f.orderby else w
  let w := if f.limit > 0 then (w.str b!" LIMIT ").str (formatPos f.limit) else w
  let w := if f.offset > 0 then (w.str b!" OFFSET ").str (formatPos f.offset) else w
  return (w.out, w.params)

/-- `countFilter.ToSQL` (filter/filter.go:513-523). -/
def FilterS.countSQL {α} (f : FilterS α) (ppos : Nat) : Option (Bytes × List (Param α)) := do
  let w ← whereSQL f ppos
  return (w.out, w.params)

/-- `Constructor.Init` (filter/filter.go:153-159). -/
def Cons.init {α} (c : Cons α) (colmap : List (Bytes × Bytes)) (tscol : Bytes) : Cons α :=
  { c with tscol := tscol, colmap := colmap.map fun kv => (kv.1, { name := kv.2 }) }

/-- `Constructor.InitV2` (filter/filter.go:164-167). -/
def Cons.initV2 {α} (c : Cons α) (colmap : List (Bytes × Column α)) (tscol : Bytes) : Cons α :=
  { c with tscol := tscol, colmap := colmap }

end Verif.Filter
