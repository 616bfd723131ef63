import Verif.Base
/-
Model of the text codecs of package `pgsql`, part 1: the parsers and quoting helpers of
pgsql/convert_util.go.

Conventions.
* Text is `Bytes`.  A Go loop `for i := ...; i < len(a); i++ { ... }` over a byte slice becomes a
  function that is structurally recursive on the suffix `a[i:]`.  Where the loop body moves the
  loop variable itself (`i += 3; continue`, `i = j`), the function takes one more argument `skip`:
  the number of bytes still to be passed over before the loop body runs again.
* Slices `a[n:i]` of the input are represented by the accumulated bytes.
* `none` in an `Option` result of a parser is a run-time panic (index or slice bounds out of
  range).  A nil `[]byte` element is `none` in the element type.
-/
namespace Verif.Pgsql

open Verif

/-- `a = a[1 : len(a)-1]` ("drop curly braces" etc.); `none` when the bounds are out of range. -/
def dropEnds (a : Bytes) : Option Bytes :=
  if a.length < 2 then none else some a.tail.dropLast

/-- Prepend to the result of the rest of a loop, keeping panics. -/
def consO {α : Type} (x : α) (r : Option (List α)) : Option (List α) := r.map (x :: ·)

/-! ### Single characters -/

/-- The loop of `pgparsearray2` (pgsql/convert_util.go:37-53). The same loop, over runes instead
of bytes, is `pgparsearray3` (convert_util.go:65-81). -/
def arr2Loop : Nat → Bytes → Option Bytes
  | _, [] => some []
  | k + 1, _ :: r => arr2Loop k r
  | 0, c :: r =>
    if c = '"' then
      match r with
      | [] => none
      | d :: r' =>
        if d = '\\' then
          match r' with
          | [] => none
          | e :: _ => consO e (arr2Loop 3 r)
        else consO d (arr2Loop 2 r)
    else if c = ',' then arr2Loop 0 r
    else consO c (arr2Loop 0 r)

/-- `pgparsearray2`, `pgparsearray3` (pgsql/convert_util.go:31-84); for the latter the input is
the decoded rune sequence. -/
def parseArray2 (a : Bytes) : Option Bytes := do
  let a ← dropEnds a
  arr2Loop 0 a

/-! ### Comma separated and space separated elements -/

/-- The loop over separators of `pgParseCommaArray` (convert_util.go:611-622) and `pgParseVector`
(convert_util.go:628-637); `cur` is `a[n:i]`. -/
def sepLoop (sep : Char) (cur : Bytes) : Bytes → List Bytes
  | [] => [cur]
  | c :: r => if c = sep then cur :: sepLoop sep [] r else sepLoop sep (cur ++ [c]) r

/-- `pgParseCommaArray` (convert_util.go:607-624). -/
def parseCommaArray (a : Bytes) : Option (List Bytes) := do
  let a ← dropEnds a
  return if a.length > 0 then sepLoop ',' [] a else []

/-- `pgParseVector` (convert_util.go:626-639). -/
def parseVector (a : Bytes) : List Bytes :=
  if a.length > 0 then sepLoop ' ' [] a else []

/-- The inner loop of the quoted case of `pgParseVectorArray` (convert_util.go:654-665) over
`a[j:]`; `cur` is `a[k:j]`, `o` is `j - (i+1)`.  Returns the vector and the number of bytes of
`a[i+1:]` to pass over (`i = j + 1` on the closing quote, nothing otherwise). -/
def vecQuoted (cur : Bytes) (o : Nat) : Bytes → List Bytes × Nat
  | [] => ([], 0)
  | c :: r =>
    if c = '"' then ([cur], o + 2)
    else if c = ' ' then
      let p := vecQuoted [] (o + 1) r
      (cur :: p.1, p.2)
    else vecQuoted (cur ++ [c]) (o + 1) r

/-- The loop of the default case of `pgParseVectorArray` (convert_util.go:674-680): the
element `a[k:j]` and `j - i` if a comma was found, 0 otherwise (`i` is left alone). -/
def vecUnquoted (cur : Bytes) (o : Nat) : Bytes → Bytes × Nat
  | [] => (cur, 0)
  | c :: r => if c = ',' then (cur, o) else vecUnquoted (cur ++ [c]) (o + 1) r

/-- The outer loop of `pgParseVectorArray` (convert_util.go:649-683). -/
def vecArrLoop : Nat → Bytes → List (Option (List Bytes))
  | _, [] => []
  | k + 1, _ :: r => vecArrLoop k r
  | 0, c :: r =>
    if c = '"' then
      some (vecQuoted [] 0 r).1 :: vecArrLoop (vecQuoted [] 0 r).2 r
    else if c = 'N' then
      if (c :: r).take 4 = b!"NULL" then none :: vecArrLoop 3 r else vecArrLoop 0 r
    else
      some [(vecUnquoted [] 0 (c :: r)).1] :: vecArrLoop (vecUnquoted [] 0 (c :: r)).2 r

/-- `pgParseVectorArray` (convert_util.go:641-686). -/
def parseVectorArray (a : Bytes) : Option (List (Option (List Bytes))) :=
  if a.length = 0 then some []
  else do
    let a ← dropEnds a
    return vecArrLoop 0 a

/-! ### Strings -/

/-- Result of the quoted string loop of `pgParseStringArray`. -/
inductive QStr where
  /-- closing quote found: the string and its offset from `a[i+1]` -/
  | closed (s : Bytes) (o : Nat)
  /-- input ended: the number of bytes of `a[i+1:]` up to and including the last backslash -/
  | unclosed (o : Nat)
deriving Repr, DecidableEq

/-- The loop of case '"' of `pgParseStringArray` (convert_util.go:259-274): `acc` is `str` plus
`a[i+1:j]`, `o` is the offset of `j`, `b` the number of bytes up to the current `i`. -/
def strQuoted (acc : Bytes) (o b : Nat) : Bytes → QStr
  | [] => .unclosed b
  | c :: r =>
    if c = '\\' then
      match r with
      | [] => .unclosed (o + 1)
      | d :: r' => strQuoted (acc ++ [d]) (o + 2) (o + 1) r'
    else if c = '"' then .closed acc o
    else strQuoted (acc ++ [c]) (o + 1) b r

/-- The outer loop of `pgParseStringArray` (convert_util.go:253-296). -/
def strArrLoop : Nat → Bytes → List (Option Bytes)
  | _, [] => []
  | k + 1, _ :: r => strArrLoop k r
  | 0, c :: r =>
    if c = ',' then strArrLoop 0 r
    else if c = '"' then
      match strQuoted [] 0 0 r with
      | .closed s o => some s :: strArrLoop (o + 1) r
      | .unclosed o => strArrLoop o r
    else if c = 'N' ∧ (c :: r).take 4 = b!"NULL" then none :: strArrLoop 3 r
    else
      some (c :: r.takeWhile (· ≠ ',')) :: strArrLoop (r.takeWhile (· ≠ ',')).length.succ r

/-- `pgParseStringArray` (convert_util.go:249-299). -/
def parseStringArray (a : Bytes) : Option (List (Option Bytes)) := do
  let a ← dropEnds a
  return strArrLoop 0 a

/-- The loop for the end of a string in `pgParseQuotedStringArray` (convert_util.go:226-237):
the offset of the closing quote. -/
def closeQuote (o : Nat) : Bytes → Option Nat
  | [] => none
  | c :: r =>
    if c = '\\' then
      match r with
      | [] => none
      | _ :: r' => closeQuote (o + 2) r'
    else if c = '"' then some o
    else closeQuote (o + 1) r

/-- The outer loop of `pgParseQuotedStringArray` (convert_util.go:223-244). Elements keep their
escape sequences. -/
def quotedArrLoop : Nat → Bytes → List (Option Bytes)
  | _, [] => []
  | k + 1, _ :: r => quotedArrLoop k r
  | 0, c :: r =>
    if c = '"' then
      match closeQuote 0 r with
      | some o => some (r.take o) :: quotedArrLoop (o + 2) r
      | none => quotedArrLoop 0 r
    else if c = 'N' then none :: quotedArrLoop 4 r
    else quotedArrLoop 0 r

/-- `pgParseQuotedStringArray` (convert_util.go:219-247). -/
def parseQuotedStringArray (a : Bytes) : Option (List (Option Bytes)) := do
  let a ← dropEnds a
  return quotedArrLoop 0 a

/-- The loop of `pgParseRange` (convert_util.go:208-214): both bounds, empty if there is no comma;
`cur` is `a[:i]`. -/
def rangeLoop (cur : Bytes) : Bytes → Bytes × Bytes
  | [] => ([], [])
  | c :: r => if c = ',' then (cur, r) else rangeLoop (cur ++ [c]) r

/-- `pgParseRange` (convert_util.go:205-217). `pgParsePoint` (convert_util.go:410-421) has the same
body. -/
def parseRange (a : Bytes) : Option (Bytes × Bytes) := do
  let a ← dropEnds a
  return rangeLoop [] a

/-! ### Quoting -/

/-- The characters `pgAppendQuote1` and `pgAppendQuote2` escape (convert_util.go:731-747, 759-775). -/
def escaped (c : Char) : Bool :=
  c = '"' || c = '\\' || c = '\x07' || c = '\x08' || c = '\x0c' || c = '\n' || c = '\r' ||
  c = '\t' || c = '\x0b'

/-- `pgAppendQuote1(nil, elem)` (convert_util.go:727-753). -/
def quote1 (elem : Bytes) : Bytes :=
  '"' :: elem.flatMap (fun c => if escaped c then ['\\', c] else [c]) ++ ['"']

/-- `pgAppendQuote2(nil, elem)` (convert_util.go:755-781). -/
def quote2 (elem : Bytes) : Bytes :=
  ['\\', '"'] ++ elem.flatMap (fun c => if escaped c then ['\\', '\\', '\\', c] else [c]) ++
    ['\\', '"']

/-! ### hstore -/

/-- `pair [2][]byte` together with `idx uint8` of `pgparsehstore` (convert_util.go:91-94);
`none` is a nil slice. -/
structure PairSt where
  idx : Bool := false
  key : Option Bytes := none
  val : Option Bytes := none
deriving Repr, DecidableEq

/-- `pair[idx] = append(pair[idx], c)`. -/
def PairSt.push (s : PairSt) (c : Char) : PairSt :=
  if s.idx then { s with val := some (s.val.getD [] ++ [c]) }
  else { s with key := some (s.key.getD [] ++ [c]) }

/-- `if idx == 1 { out = append(out, pair); pair = [2][]byte{} }; idx ^= 1`
(convert_util.go:113-119, 167-173): the pair completed, if any, and the next state. -/
def PairSt.flip (s : PairSt) : List (Option Bytes × Option Bytes) × PairSt :=
  if s.idx then ([(s.key, s.val)], { }) else ([], { s with idx := true })

/-- The loop over the characters of a key or value in `pgparsehstore`
(convert_util.go:98-111); `o` is the offset of `j` from `i+1`.  Returns the state and how many
bytes of `a[i+1:]` to pass over. -/
def hsQuoted (s : PairSt) (o : Nat) : Bytes → Option (PairSt × Nat)
  | [] => some (s, 0)
  | c :: r =>
    if c = '\\' then
      match r with
      | [] => none
      | d :: r' => hsQuoted (s.push d) (o + 2) r'
    else if c = '"' then some (s, o + 1)
    else hsQuoted (s.push c) (o + 1) r

/-- The outer loop of `pgparsehstore` (convert_util.go:96-128).  On the closing quote `i = j`, and
the test `a[i] == 'N'` that follows fails on the quote. -/
def hsLoop (s : PairSt) : Nat → Bytes → Option (List (Option Bytes × Option Bytes))
  | _, [] => some []
  | k + 1, _ :: r => hsLoop s k r
  | 0, c :: r =>
    if c = '"' then
      match hsQuoted s 0 r with
      | none => none
      | some (s', o) => (hsLoop s'.flip.2 o r).map (s'.flip.1 ++ ·)
    else if c = 'N' then (hsLoop {} 4 r).map ((s.key, s.val) :: ·)
    else hsLoop s 0 r

/-- `pgparsehstore` (convert_util.go:86-130). -/
def parseHStore (a : Bytes) : Option (List (Option Bytes × Option Bytes)) := hsLoop {} 0 a

/-! ### hstore arrays -/

/-- The innermost loop of `pgparsehstorearr` (convert_util.go:150-165) over `a[k:]`; `o` is
`k - (j+2)`.  Returns the state and, if the closing `\"` was found, the offset of it. -/
def hsaQuoted (s : PairSt) (o : Nat) : Nat → Bytes → Option (PairSt × Option Nat)
  | _, [] => some (s, none)
  | n + 1, _ :: r => hsaQuoted s o n r
  | 0, c :: r =>
    if c = '\\' then
      match r with
      | [] => none
      | d :: r' =>
        if d = '\\' then
          match r' with
          | _ :: e :: _ => hsaQuoted (s.push e) (o + 4) 3 r
          | _ => none
        else if d = '"' then some (s, some o)
        else hsaQuoted (s.push c) (o + 1) 0 r
    else hsaQuoted (s.push c) (o + 1) 0 r

/-- What the tests at the bottom of the middle loop (convert_util.go:176-188) do at `a[j:]`:
`none` is an index out of range; otherwise the extra pairs, the state, how far `j` moved and
whether the hstore ends there. -/
def hsaTail (s : PairSt) (aj : Bytes) :
    Option (List (Option Bytes × Option Bytes) × PairSt × Nat × Bool) :=
  match aj with
  | [] => none
  | c :: _ =>
    if c = 'N' then
      match aj.drop 4 with
      | [] => none
      | d :: _ => some ([(s.key, s.val)], {}, 4, d = '"')
    else some ([], s, 0, c = '"')

/-- The middle loop of `pgparsehstorearr` (convert_util.go:147-189) over `a[j:]`; `o` is
`j - (i+1)`.  Returns the pairs of the hstore, the state, and, if the closing quote was found, its
offset. -/
def hsaPairs (s : PairSt) (o : Nat) : Nat → Bytes →
    Option (List (Option Bytes × Option Bytes) × PairSt × Option Nat)
  | _, [] => some ([], s, none)
  | n + 1, _ :: r => hsaPairs s o n r
  | 0, c :: r =>
    if c = '\\' ∧ r = [] then none           -- a[j+1]
    else if c = '\\' ∧ r.head? = some '"' then
      match hsaQuoted s 0 0 r.tail with
      | none => none
      | some (s', q) =>
        -- j = k + 2 when the closing quote was found
        let m := match q with | some q => q + 4 | none => 0
        match hsaTail s'.flip.2 ((c :: r).drop m) with
        | none => none
        | some (ps, s'', m', fin) =>
          if fin then some (s'.flip.1 ++ ps, s'', some (o + m + m'))
          else match hsaPairs s'' (o + m + m' + 1) (m + m') r with
            | none => none
            | some (rest, t, q') => some (s'.flip.1 ++ ps ++ rest, t, q')
    else
      match hsaTail s (c :: r) with
      | none => none
      | some (ps, s'', m', fin) =>
        if fin then some (ps, s'', some (o + m'))
        else match hsaPairs s'' (o + m' + 1) m' r with
          | none => none
          | some (rest, t, q') => some (ps ++ rest, t, q')

/-- The outer loop of `pgparsehstorearr` (convert_util.go:143-197).  A nil hstore is `none`.
(If the closing quote is missing, `i` stays at the opening quote and the pairs are dropped.) -/
def hsaLoop (s : PairSt) : Nat → Bytes →
    Option (List (Option (List (Option Bytes × Option Bytes))))
  | _, [] => some []
  | k + 1, _ :: r => hsaLoop s k r
  | 0, c :: r =>
    if c = '"' then
      match hsaPairs s 0 0 r with
      | none => none
      | some (ps, s', some o) => (hsaLoop s' (o + 1) r).map (some ps :: ·)
      | some (_, s', none) => hsaLoop s' 0 r
    else if c = 'N' then (hsaLoop s 4 r).map (none :: ·)
    else hsaLoop s 0 r

/-- `pgparsehstorearr` (convert_util.go:132-199). -/
def parseHStoreArr (a : Bytes) : Option (List (Option (List (Option Bytes × Option Bytes)))) :=
  if a.length = 0 then some []
  else do
    let a ← dropEnds a
    hsaLoop {} 0 a

end Verif.Pgsql
