import Verif.Generator.PropsParams

/-
What conditions mean: the meaning a where struct or a join directive asks for, and the meaning of an SQL
condition.  A condition is true, false or unknown.

`CondWorld` is what a condition talks about: the row at hand, the operators and functions of the database, and
the values of the fields of the query struct.  A conversion (`pgsql.F`) or a cast that states the type of
a parameter does not change a value; the conversions themselves are the subject of C01 to C27.
-/
namespace Verif.Generator
open Verif.Analysis Verif.Postgres

/-- True, false or (`none`) unknown. -/
abbrev B3 := Option Bool

def not3 (a : B3) : B3 := a.map (!·)
def and3 (a b : B3) : B3 :=
  if a = some false ∨ b = some false then some false
  else if a = some true ∧ b = some true then some true else none
def or3 (a b : B3) : B3 :=
  if a = some true ∨ b = some true then some true
  else if a = some false ∧ b = some false then some false else none

section
variable {V : Type}

/-- Some element satisfies the condition; for no elements it is false. -/
def any3 (f : V → B3) (l : List V) : B3 := l.foldr (fun x b => or3 (f x) b) (some false)
/-- All elements satisfy the condition; for no elements it is true. -/
def all3 (f : V → B3) (l : List V) : B3 := l.foldr (fun x b => and3 (f x) b) (some true)
end

structure CondWorld (V : Type) where
  /-- the column of the row at hand -/
  col : ColIdent → V
  /-- the value of a literal -/
  lit : Bytes → V
  /-- the function of that name -/
  call : Bytes → V → V
  /-- the operator written so -/
  op : Bytes → V → V → B3
  isNull : V → Bool
  truth : V → B3
  /-- the elements of an array -/
  elems : V → List V
  /-- the value of the field, given by its path from the receiver -/
  field : List Bytes → V

/-! ### The meaning of SQL conditions -/

/-- How the operator is written. -/
def BinOp.text : BinOp → Bytes
  | .eq => b!"="
  | .ne => b!"<>"
  | .ne2 => b!"!="
  | .lt => b!"<"
  | .gt => b!">"
  | .le => b!"<="
  | .ge => b!">="
  | .matches => b!"~"
  | .matchesCI => b!"~*"
  | .notMatches => b!"!~"
  | .notMatchesCI => b!"!~*"
  | .like n => if n then b!"NOT LIKE" else b!"LIKE"
  | .ilike n => if n then b!"NOT ILIKE" else b!"ILIKE"
  | .similar n => if n then b!"NOT SIMILAR TO" else b!"SIMILAR TO"
  | .distinct n => if n then b!"IS NOT DISTINCT FROM" else b!"IS DISTINCT FROM"

def negIf (n : Bool) (b : B3) : B3 := if n then not3 b else b

/-- The field an expression passed to the database takes its value from. -/
def goPath : GoExpr → List Bytes
  | .ident n => [n]
  | .sel x n => goPath x ++ [n]
  | .conv _ x => goPath x
  | _ => []

def truthVal : Truth → B3
  | .true => some Bool.true
  | .false => some Bool.false
  | .unknown => none

def quantify {V : Type} : Quant → (V → B3) → List V → B3
  | .any => any3
  | .some => any3
  | .all => all3

section
variable {V : Type} (W : CondWorld V)

/-- The value of an expression; none if it has no value by itself. -/
def evalV : VExpr GoExpr → Option V
  | .param a => some (W.field (goPath a))
  | .col c => some (W.col c)
  | .lit s => some (W.lit s)
  | .cast x _ => evalV x
  | .call f x => (evalV x).map (W.call f)
  | _ => none

/-- x BETWEEN lo AND hi. -/
def inRange (x lo hi : V) : B3 := and3 (W.op b!">=" x lo) (W.op b!"<=" x hi)

/-- A two-place operator whose right side may be ANY, SOME or ALL of an array. -/
def evalBin (op : BinOp) (l r : VExpr GoExpr) : Option B3 :=
  (evalV W l).bind fun x =>
    match r with
    | .quantified q r => (evalV W r).map fun y => quantify q (W.op op.text x) (W.elems y)
    | r => (evalV W r).map fun y => W.op op.text x y

mutual
/-- The meaning of a condition; none if it is not one. -/
def evalB : BExpr GoExpr → Option B3
  | .binary op l r => evalBin W op l r
  | .inList n x a =>
    (evalV W x).map fun x => negIf n (any3 (W.op b!"=" x) (W.elems (W.field (goPath a))))
  | .truth n t x => (evalV W x).map fun x => negIf n (some (W.truth x = truthVal t))
  | .null n x => (evalV W x).map fun x => negIf n (some (W.isNull x))
  | .between x lo hi =>
    (evalV W x).bind fun x => (evalV W lo).bind fun lo => (evalV W hi).map fun hi => inRange W x lo hi
  | .bare x => (evalV W x).map W.truth
  | .group l => evalList l
/-- A list that begins with a condition. -/
def evalList : BList GoExpr → Option B3
  | .cons .initial x l => (evalB x).bind fun b => evalRest b l
  | _ => none
/-- AND binds more tightly than OR; `acc` is what precedes, back to the last OR. -/
def evalRest (acc : B3) : BList GoExpr → Option B3
  | .nil => some acc
  | .cons .and x l => (evalB x).bind fun b => evalRest (and3 acc b) l
  | .cons .or x l => (evalB x).bind fun b => (evalRest b l).map (or3 acc)
  | .cons .initial _ _ => none
end

/-! ### The meaning asked for -/

/-- The SQL operator that a predicate of a tag stands for. -/
def predText : Pred → Bytes
  | .isEQ => b!"="
  | .notEQ => b!"<>"
  | .notEQ2 => b!"!="
  | .isLT => b!"<"
  | .isGT => b!">"
  | .isLTE => b!"<="
  | .isGTE => b!">="
  | .isDistinct => b!"IS DISTINCT FROM"
  | .notDistinct => b!"IS NOT DISTINCT FROM"
  | .isMatch => b!"~"
  | .isMatchi => b!"~*"
  | .notMatch => b!"!~"
  | .notMatchi => b!"!~*"
  | .isLike => b!"LIKE"
  | .notLike => b!"NOT LIKE"
  | .isILike => b!"ILIKE"
  | .notILike => b!"NOT ILIKE"
  | .isSimilar => b!"SIMILAR TO"
  | .notSimilar => b!"NOT SIMILAR TO"
  | _ => []

/-- The function applied to a value. -/
def applyFn (fn : Bytes) (x : V) : V := if fn = [] then x else W.call fn x

/-- A value compared with an operand. -/
def asked (p : Pred) (quant : Option Quant) (x y : V) : B3 :=
  match quant with
  | none => W.op (predText p) x y
  | some .all => all3 (W.op (predText p) x) (W.elems y)
  | some _ => any3 (W.op (predText p) x) (W.elems y)

/-- A column compared with a field, both under the function of the tag. -/
def askedField (path : List Bytes) (f : FieldCond) : B3 :=
  let x := applyFn W f.func (W.col f.colIdent)
  let v := W.field (path ++ [f.name])
  match f.pred with
  | some .isIn => any3 (fun e => W.op b!"=" x (applyFn W f.func e)) (W.elems v)
  | some .notIn => not3 (any3 (fun e => W.op b!"=" x (applyFn W f.func e)) (W.elems v))
  | some p => asked W p f.quant x (applyFn W f.func v)
  | none => none

/-- A column tested by itself. -/
def askedUnary (p : Pred) (x : V) : B3 :=
  match p with
  | .isNull => some (W.isNull x)
  | .notNull => some (!W.isNull x)
  | .isTrue => some (W.truth x = some true)
  | .notTrue => some (W.truth x ≠ some true)
  | .isFalse => some (W.truth x = some false)
  | .notFalse => some (W.truth x ≠ some false)
  | .isUnknown => some (W.truth x = none)
  | .notUnknown => some (W.truth x ≠ none)
  | _ => none

/-- A column tested, or compared with a column or a literal. -/
def askedColumn (c : ColCond) : B3 :=
  match c.pred, c.rhs with
  | some p, .none => askedUnary W p (W.col c.lhs)
  | some p, .column r => asked W p c.quant (W.col c.lhs) (W.col r)
  | some p, .literal s => asked W p c.quant (W.col c.lhs) (W.lit s)
  | none, _ => none

def boundVal (path : List Bytes) : Bound → V
  | .column c => W.col c
  | .field n _ => W.field (path ++ [n])

/-- [NOT] BETWEEN [SYMMETRIC]. -/
def askedRange (p : Option Pred) (x lo hi : V) : B3 :=
  match p with
  | some .isBetween => inRange W x lo hi
  | some .isBetweenAsym => inRange W x lo hi
  | some .notBetween => not3 (inRange W x lo hi)
  | some .notBetweenAsym => not3 (inRange W x lo hi)
  | some .isBetweenSym => or3 (inRange W x lo hi) (inRange W x hi lo)
  | some .notBetweenSym => not3 (or3 (inRange W x lo hi) (inRange W x hi lo))
  | _ => none

def askedBetween (path : List Bytes) (b : BetweenCond) : B3 :=
  askedRange W b.pred (W.col b.colIdent) (boundVal W (path ++ [b.name]) b.lower)
    (boundVal W (path ++ [b.name]) b.upper)

mutual
/-- The meaning of an item of a where struct at the path. -/
def askedItem (path : List Bytes) : WItem → B3
  | .bool _ => none
  | .nested n items => or3 (askedAnd (path ++ [n]) items) (askedOr (path ++ [n]) items)
  | .field f => askedField W path f
  | .column c => askedColumn W c
  | .between b => askedBetween W path b
/-- The items up to the first OR are all satisfied. -/
def askedAnd (path : List Bytes) : List WItem → B3
  | [] => some true
  | .bool true :: _ => some true
  | .bool false :: l => askedAnd path l
  | i :: l => and3 (askedItem path i) (askedAnd path l)
/-- After some OR, the items up to the next are all satisfied. -/
def askedOr (path : List Bytes) : List WItem → B3
  | [] => some false
  | .bool true :: l => or3 (askedAnd path l) (askedOr path l)
  | _ :: l => askedOr path l
end

/-- The meaning of a where struct at the path: some group of conditions between ORs is satisfied. -/
def askedAll (path : List Bytes) (items : List WItem) : B3 :=
  or3 (askedAnd W path items) (askedOr W path items)

end

/-! ### Exceptions -/

/-- A predicate that is not rendered with its meaning. -/
def renderedRange (p : Option Pred) : Bool := p = some .isBetween || p = some .isBetweenAsym

mutual
/-- None of the exceptions applies to the item: an empty group, a function with IN, a column compared by
IN or BETWEEN with one value, a negated or symmetric range. -/
def rendered : WItem → Bool
  | .bool _ => true
  | .nested _ items => items.length > 0 && renderedAll items
  | .field f => f.func.length = 0 || !predIs Pred.isArray f.pred
  | .column c => !predIs Pred.isArray c.pred && !predIs Pred.isRange c.pred
  | .between b => renderedRange b.pred
def renderedAll : List WItem → Bool
  | [] => true
  | i :: is => rendered i && renderedAll is
end

end Verif.Generator
