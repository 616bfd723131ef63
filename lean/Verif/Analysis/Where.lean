import Verif.Analysis.Fields

/-
Where structs: /repo/internal/analysis/analysis.go:751-1034 (analyzeWhereStruct), :2005-2012
(parseFuncName), types.go:254-343.

Simplifications: positions and `FieldMap` are left out.  The stack of loops is a recursion; the items
of a nested struct are returned instead of being written through a pointer.
-/
namespace Verif.Analysis

/-- types.go:340-343 RangeBound. -/
inductive Bound where
  | column (c : ColIdent)
  | field (name : Bytes) (type : TypeInfo)
deriving Repr, DecidableEq

/-- The right-hand side of a column directive: `RHSColIdent` or `RHSLiteral`; `none` if there is no
right-hand side. -/
inductive Rhs where
  | none
  | column (c : ColIdent)
  | literal (s : Bytes)
deriving Repr, DecidableEq

/-- types.go:288-299 WhereColumnDirective and :380-381 JoinConditionTagItem. -/
structure ColCond where
  lhs : ColIdent
  rhs : Rhs := .none
  pred : Option Pred
  quant : Option Quant := none
deriving Repr, DecidableEq

/-- types.go:270-284 WhereStructField. -/
structure FieldCond where
  name : Bytes
  type : TypeInfo
  colIdent : ColIdent
  pred : Option Pred
  quant : Option Quant := none
  func : Bytes := []
deriving Repr, DecidableEq

/-- types.go:303-318 WhereBetweenStruct. -/
structure BetweenCond where
  name : Bytes
  colIdent : ColIdent
  pred : Option Pred
  lower : Bound
  upper : Bound
deriving Repr, DecidableEq

/-- types.go:336-338 WhereItem. -/
inductive WItem where
  /-- WhereBoolTag: is it OR? -/
  | bool (isOr : Bool)
  | nested (name : Bytes) (items : List WItem)
  | field (f : FieldCond)
  | column (c : ColCond)
  | between (b : BetweenCond)
deriving Repr

/-- `strings.Contains`. -/
def hasSub (p : Bytes) : Bytes → Bool
  | [] => p.length = 0
  | c :: cs => p.isPrefixOf (c :: cs) || hasSub p cs

/-- analysis.go:2005-2012. -/
def parseFuncName (vals : List Bytes) : Bytes :=
  match vals.find? fun v => v.head? = some '@' with
  | some v => lower (v.drop 1)
  | none => []

/-- A check that fails with the given code. -/
def failIf (c : Bool) (e : ECode) : R Unit := if c then .err e else .ok ()

/-- analysis.go:863-871, 1172-1180: a column if it is one, otherwise a literal. -/
def parseRhs (rs : RelSpace) (rhs : Bytes) : R Rhs :=
  match parseColIdent rs rhs with
  | .ok c => .ok (.column c)
  | .err e => if e = .badColIdTagValue then .ok (.literal rhs) else .err e
  | .panic => .panic

def predIs (f : Pred → Bool) (p : Option Pred) : Bool := p.any f

/-- analysis.go:852-906 and, on the parsed left-hand side, :1165-1200: a column compared with a column
or a literal, or a column with a unary predicate. -/
def colCond (rs : RelSpace) (lhs : ColIdent) (e : PExpr) : R ColCond :=
  if e.rhs.length > 0 then
    (parseRhs rs e.rhs).bind fun rhs =>
      let pred := stringToPredicate e.op
      let quant := stringToQuantifier e.quant
      (failIf (predIs Pred.isUnary pred) .illegalUnaryPredicate).bind fun _ =>
      (failIf (quant.isSome && !predIs Pred.canQuantify pred) .illegalPredicateQuantifier).bind fun _ =>
        .ok { lhs := lhs, rhs := rhs, pred := pred, quant := quant }
  else
    let pred := stringToPredicate (if e.op.length = 0 then b!"istrue" else e.op)
    (failIf (!predIs Pred.isUnary pred) .badDirectiveBooleanExpr).bind fun _ =>
    (failIf (e.quant.length > 0) .illegalPredicateQuantifier).bind fun _ =>
      .ok { lhs := lhs, pred := pred }

/-- analysis.go:842-907: a blank field; `none` if it is no Column directive. -/
def whereDirective (rs : RelSpace) (t : Ty) (e : PExpr) : R (Option WItem) :=
  (isDirective b!"Column" t).bind fun d =>
    if d then
      (parseColIdent rs e.lhs).bind fun lhs => (colCond rs lhs e).map fun c => some (.column c)
    else .ok none

/-- The position of a bound: analysis.go:944-948, 956-960. -/
def boundPos (v : Bytes) : Option Bool :=
  if tolower v = b!"x" ∨ tolower v = b!"lower" then some true
  else if tolower v = b!"y" ∨ tolower v = b!"upper" then some false
  else none

/-- analysis.go:936-962: the bound given by a field of a between struct, and its position. -/
def betweenField (env : Env) (rs : RelSpace) (n : Option NamedInfo) (h : FieldHdr) (t : Ty) :
    R (Option (Bound × Option Bool)) :=
  (if h.name = b!"_" then isDirective b!"Column" t else .ok false).bind fun dir =>
    if dir then
      (parseColIdent rs (h.tag.first b!"sql")).map fun cid =>
        some (.column cid, boundPos (h.tag.second b!"sql"))
    else
      (isAccessible env.pkgPath h.name h.exported n).bind fun acc =>
        if acc then
          (analyzeTypeInfo env.pkgPath t).map fun p =>
            some (.field h.name p.1, boundPos (h.tag.first b!"sql"))
        else .ok none

/-- The variables `lower` and `upper` after one field. -/
def setBound (b : Option (Bound × Option Bool)) (lu : Option Bound × Option Bound) :
    Option Bound × Option Bound :=
  match b with
  | some (x, some true) => (some x, lu.2)
  | some (x, some false) => (lu.1, some x)
  | _ => lu

/-- analysis.go:921-967: the bounds of a between struct. -/
def betweenBounds (env : Env) (rs : RelSpace) (t : Ty) : R (Bound × Bound) :=
  match getStruct t with
  | some (n, .cons h1 t1 (.cons h2 t2 .nil)) =>
    (betweenField env rs n h1 t1).bind fun b1 =>
    (betweenField env rs n h2 t2).bind fun b2 =>
      match setBound b2 (setBound b1 (none, none)) with
      | (some l, some u) => .ok (l, u)
      | _ => .err .badBetweenPredicate
  | _ => .err .badBetweenPredicate

/-- analysis.go:916-984. -/
def whereBetween (env : Env) (rs : RelSpace) (h : FieldHdr) (t : Ty) (e : PExpr) :
    R (Option WItem) :=
  (failIf (e.quant.length > 0) .illegalPredicateQuantifier).bind fun _ =>
  (betweenBounds env rs t).bind fun b =>
  (parseColIdent rs e.lhs).map fun cid =>
    some (.between
      { name := h.name, colIdent := cid, pred := stringToPredicate e.op, lower := b.1, upper := b.2 })

/-- analysis.go:986-1015. -/
def whereField (env : Env) (rs : RelSpace) (h : FieldHdr) (t : Ty) (e : PExpr) : R (Option WItem) :=
  (parseColIdent rs e.lhs).bind fun cid =>
  (analyzeTypeInfo env.pkgPath t).bind fun p =>
    let pred := stringToPredicate (if e.op.length = 0 then b!"=" else e.op)
    let quant := stringToQuantifier e.quant
    (failIf (predIs Pred.isUnary pred) .illegalUnaryPredicate).bind fun _ =>
    (failIf (quant.isSome && !predIs Pred.canQuantify pred) .illegalPredicateQuantifier).bind fun _ =>
    (failIf (quant.isSome && !p.1.isSequence) .illegalFieldQuantifier).bind fun _ =>
    (failIf (predIs Pred.isArray pred && !p.1.isSequence) .illegalListPredicate).bind fun _ =>
      .ok (some (.field
        { name := h.name, type := p.1, colIdent := cid, pred := pred, quant := quant
          func := parseFuncName ((h.tag.get b!"sql").drop 1) }))

/-- analysis.go:840-1015: a field that is not nested; `none` if it adds no item. -/
def whereLeaf (env : Env) (rs : RelSpace) (h : FieldHdr) (t : Ty) : R (Option WItem) :=
  let e := parsePredicateExpr (h.tag.first b!"sql")
  if h.name = b!"_" then whereDirective rs t e
  else if hasSub b!"between" e.op then whereBetween env rs h t e
  else whereField env rs h t e

/-- analysis.go:794-803: does the field take part?  `root` names the type of the outermost struct. -/
def whereRelevant (env : Env) (root : Option NamedInfo) (h : FieldHdr) : R Bool :=
  if h.tag.first b!"sql" = b!"-" ∨ (h.tag.first b!"sql").length = 0 then .ok false
  else if h.name = b!"_" then .ok true
  else isAccessible env.pkgPath h.name h.exported root

/-- analysis.go:808-819: the connective, for any but the first item. -/
def whereBool (items : List WItem) (h : FieldHdr) : R (List WItem) :=
  if items.length = 0 then .ok []
  else if (tolower (h.tag.first b!"bool")).length = 0 then .ok [.bool false]
  else if tolower (h.tag.first b!"bool") = b!"or" then .ok [.bool true]
  else if tolower (h.tag.first b!"bool") = b!"and" then .ok [.bool false]
  else .err .badBoolTagValue

mutual
/-- The loop of analysis.go:783-1016 over the fields of one struct; `items` is `loop.items`. -/
def whereItems (env : Env) (rs : RelSpace) (root : Option NamedInfo) (items : List WItem) :
    Fields → R (List WItem)
  | .nil => .ok items
  | .cons h t rest =>
    (whereRelevant env root h).bind fun rel =>
      if rel then
        (whereBool items h).bind fun bs =>
          if h.tag.first b!"sql" = b!">" then
            (whereNested env rs root t).bind fun sub =>
              whereItems env rs root (items ++ bs ++ [.nested h.name sub]) rest
          else
            (whereLeaf env rs h t).bind fun o =>
              whereItems env rs root (items ++ bs ++ o.toList) rest
      else whereItems env rs root items rest
/-- analysis.go:823-838: the items of a nested struct. -/
def whereNested (env : Env) (rs : RelSpace) (root : Option NamedInfo) : Ty → R (List WItem)
  | .struct fs => whereItems env rs root [] fs
  | .named _ (.struct fs) => whereItems env rs root [] fs
  | _ => .err .badFieldTypeStruct
end

end Verif.Analysis
