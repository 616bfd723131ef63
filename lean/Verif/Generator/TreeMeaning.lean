import Verif.Generator.Sem
import Verif.Generator.Trees
import Verif.Generator.Run

/-
What the conditions of a statement mean, as PostgreSQL reads them: the value of a tree, given a row and the
parameters that are sent.

This is the specification of C94. A condition is true, false or unknown (Sem.lean). A cast of a parameter says which
type the parameter has and gives its value.
-/
namespace Verif.Generator.Gram
open Verif.Analysis Verif.Postgres Verif.Generator.Lex

section
variable {V : Type}

/-- A row, and what the database does with values. -/
structure DbRow (V : Type) where
  /-- the column with these names -/
  col : List Tok → V
  /-- the value of a literal -/
  const : Tok → V
  /-- a function without arguments -/
  fn : Bytes → V
  call : Bytes → V → V
  /-- a function of two arguments, other than NULLIF and COALESCE -/
  fn2 : Bytes → V → V → V
  /-- the operator with these tokens -/
  op : List Tok → V → V → B3
  isNull : V → Bool
  truth : V → B3
  /-- the elements of an array -/
  elems : V → List V
  /-- the value as one of the type -/
  cast : List Tok → V → V
  /-- the values are equal, for NULLIF -/
  same : V → V → Bool
  null : V

variable (D : DbRow V) (ps : List V)

/-- The parameter with the number. -/
def numbered (n : Bytes) : Option V :=
  match Nat.ofDigitChars 10 n 0 with
  | 0 => none
  | k + 1 => ps[k]?

def constVal : Tok → Option V
  | .param n => numbered ps n
  | t => some (D.const t)

def isParam : Ex → Bool
  | .const (.param _) => true
  | _ => false

/-- The value of `x` cast to the type. -/
def castAs (x : Ex) (t : List Tok) (v : V) : V := if isParam x then v else D.cast t v

/-- NULLIF, COALESCE and other functions. -/
def call2 (f : Bytes) (x y : V) : Option V :=
  if f = b!"nullif" then some (if D.same x y then D.null else x)
  else if f = b!"coalesce" then some (if D.isNull x then y else x)
  else some (D.fn2 f x y)

/-- The value of a tree; none if it is not one. -/
def treeVal : Ex → Option V
  | .const t => constVal D ps t
  | .col p => some (D.col p)
  | .call f [] => some (D.fn f)
  | .call f [x] => (treeVal x).map (D.call f)
  | .call f [x, y] => (treeVal x).bind fun x => (treeVal y).bind fun y => call2 D f x y
  | .cast x t => (treeVal x).map (castAs D x t)
  | _ => none

/-- IS [NOT] NULL, TRUE, FALSE, UNKNOWN. -/
def isVal (w : Bytes) (x : V) : Option B3 :=
  if w = b!"null" then some (some (D.isNull x))
  else if w = b!"true" then some (some (D.truth x = some true))
  else if w = b!"false" then some (some (D.truth x = some false))
  else if w = b!"unknown" then some (some (D.truth x = none))
  else none

/-- ANY, SOME and ALL. -/
def quantVal (q : Bytes) (p : V → B3) (l : List V) : Option B3 :=
  if q = b!"all" then some (all3 p l) else if q = b!"any" ∨ q = b!"some" then some (any3 p l) else none

/-- The operator between two trees. -/
def opVal (o : List Tok) (l r : Ex) : Option B3 :=
  (treeVal D ps l).bind fun x => (treeVal D ps r).map (D.op o x)

def wordsOf (k : Bytes) : List Tok := if k = b!"similar" then [.word b!"similar", .word b!"to"] else [.word k]

/-- Whether the row satisfies the condition, if these are the parameters; none if it is not a condition. -/
def treeHolds : Ex → Option B3
  | .op o l r => opVal D ps [.op o] l r
  | .like n k l r => opVal D ps (notToks n ++ wordsOf k) l r
  | .distinct n l r => opVal D ps (.word b!"is" :: notToks n ++ [.word b!"distinct", .word b!"from"]) l r
  | .quant o q l r =>
    (treeVal D ps l).bind fun x => (treeVal D ps r).bind fun y => quantVal q (D.op o x) (D.elems y)
  | .isIn n x l =>
    (treeVal D ps x).bind fun x => (l.mapM (treeVal D ps)).map fun ys => negIf n (any3 (D.op [.op b!"="] x) ys)
  | .is n w x => (treeVal D ps x).bind fun x => (isVal D w x).map (negIf n)
  | .between n x lo hi =>
    (treeVal D ps x).bind fun x => (treeVal D ps lo).bind fun lo => (treeVal D ps hi).map fun hi =>
      negIf n (and3 (D.op [.op b!">="] x lo) (D.op [.op b!"<="] x hi))
  | .not x => (treeHolds x).map not3
  | .and l r => (treeHolds l).bind fun x => (treeHolds r).map (and3 x)
  | .or l r => (treeHolds l).bind fun x => (treeHolds r).map (or3 x)
  | x => (treeVal D ps x).map D.truth

/-! The texts of a condition. -/

/-- A part of an expression of which the text is written as it is. -/
inductive Part where
  | lit (s : Bytes)
  | col (c : ColIdent)
  /-- the type that something other than a parameter is cast to -/
  | cast (t : Bytes)

def castParts {α : Type} (t : Bytes) : VExpr α → List Part
  | .param _ => []
  | _ => [.cast t]

def valParts {α : Type} : VExpr α → List Part
  | .lit s => [.lit s]
  | .col c => [.col c]
  | .cast x t => castParts t x ++ valParts x
  | .call _ x | .quantified _ x => valParts x
  | .nullif x y | .coalesce x y => valParts x ++ valParts y
  | _ => []

mutual
def condParts {α : Type} : BExpr α → List Part
  | .binary _ l r => valParts l ++ valParts r
  | .inList _ x _ => valParts x
  | .truth _ _ x => valParts x
  | .null _ x => valParts x
  | .between x lo hi => valParts x ++ valParts lo ++ valParts hi
  | .bare x => valParts x
  | .group l => condsParts l
def condsParts {α : Type} : BList α → List Part
  | .nil => []
  | .cons _ x rest => condParts x ++ condsParts rest
end

/-- No literal is read as a parameter, like `$1`; the columns are those that conditions are explained with (Sem.lean);
casts, other than those of parameters, keep the value. -/
def Part.Suits (W : CondWorld V) : Part → Prop
  | .lit s => ∀ n, lex s ≠ [.param n]
  | .col c => W.col c = D.col (colPath c)
  | .cast t => ∀ x, D.cast (lex t) x = x

def Suits (W : CondWorld V) (l : List Part) : Prop := ∀ x ∈ l, x.Suits D W

/-- The condition of WHERE. -/
def StT.wher : StT → Option Ex
  | .select s | .exists_ _ s => s.wher
  | .insert .. => none
  | .update _ _ _ _ w _ | .delete _ _ w _ => w

/-- The joined tables. -/
def FromT.joins : FromT → List JoinT
  | .tables _ js => js
  | _ => []

def StT.joins : StT → List JoinT
  | .select s | .exists_ _ s => s.joins
  | .insert .. => []
  | .update _ _ _ f _ _ | .delete _ f _ _ => f.joins

/-- `W`, with which the conditions of a query are explained (Sem.lean), is about this row. -/
structure About (W : CondWorld V) : Prop where
  lit : ∀ s v, (∀ n, lex s ≠ [.param n]) → treeVal D ps (atomEx (lex s)) = some v → W.lit s = v
  call : ∀ f, W.call f = D.call (lower f)
  op : ∀ o : BinOp, W.op o.text = D.op (binToks o)
  isNull : W.isNull = D.isNull
  truth : W.truth = D.truth
  elems : W.elems = D.elems

/-- The fields have the values of the fields of the query that the method is called on; what is sent for a slice
are its elements. -/
structure Fields (sent : Val → V) (w : World) (c : Code) (W : CondWorld V) : Prop where
  field : ∀ e ∈ c.args, W.field (goPath e) = sent (eval w.field e)
  slice : ∀ e ∈ c.g.slices, W.elems (W.field (goPath e)) = (w.slice e).map sent

end

end Verif.Generator.Gram
