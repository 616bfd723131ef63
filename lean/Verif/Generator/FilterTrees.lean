import Verif.Generator.Trees
import Verif.Filter.Spec

/-
The trees that the conditions of a filter, and statements with a filter, are meant to be read as.

This is the specification of C90, as Trees.lean is that of C89. What was asked for is described as in
Filter/Spec.lean: a sequence of predicates, connectives and parentheses.
-/
namespace Verif.Generator.Gram
open Verif.Analysis Verif.Postgres Verif.Generator.Lex Print

/-! ### Columns, operators, predicates -/

/-- The column that the tokens are: names with points between them. -/
def colOf : List Tok → Option Ex
  | t :: r => if isName t = true ∧ (dots r).2.length = 0 then some (.col (t :: (dots r).1)) else none
  | [] => none

/-- The operators that are written with words. -/
def wordOps : List (List Bytes × (Ex → Ex → Ex)) :=
  [([b!"like"], .like false b!"like"), ([b!"not", b!"like"], .like true b!"like"),
   ([b!"ilike"], .like false b!"ilike"), ([b!"not", b!"ilike"], .like true b!"ilike"),
   ([b!"similar", b!"to"], .like false b!"similar"), ([b!"not", b!"similar", b!"to"], .like true b!"similar"),
   ([b!"is", b!"distinct", b!"from"], .distinct false), ([b!"is", b!"not", b!"distinct", b!"from"], .distinct true)]

/-- The operator that the tokens are. -/
def opOf : List Tok → Option (Ex → Ex → Ex)
  | [.op o] => if isArith o then none else some (.op o)
  | ts => (wordOps.find? fun e => e.1.map Tok.word = ts).map (·.2)

/-- What may follow IS. -/
def isWords : List (List Bytes × (Ex → Ex)) :=
  [([b!"is", b!"null"], .is false b!"null"), ([b!"is", b!"not", b!"null"], .is true b!"null"),
   ([b!"is", b!"true"], .is false b!"true"), ([b!"is", b!"not", b!"true"], .is true b!"true"),
   ([b!"is", b!"false"], .is false b!"false"), ([b!"is", b!"not", b!"false"], .is true b!"false")]

def isOf (ts : List Tok) : Option (Ex → Ex) := (isWords.find? fun e => e.1.map Tok.word = ts).map (·.2)

/-- The parameter with the number. -/
def paramEx (n : Nat) : Ex := .const (.param (itoa n))

section
variable {α : Type}

/-- The number of the parameters of a predicate. -/
def predParams (x : Filter.Pred α) : Nat :=
  match x.form with
  | .cmp .. | .anyOf .. | .search _ => 1
  | .is _ => 0
  | .isIn xs => xs.length

/-- The predicate, if `p` parameters come before it; none if its column or its operator is no such thing, or if it
asks for a member of an empty list. -/
def predTree (p : Nat) (x : Filter.Pred α) : Option Ex :=
  (colOf (lex x.column)).bind fun c =>
    match x.form with
    | .cmp op _ => (opOf (lex op)).map fun g => g c (paramEx (p + 1))
    | .is w => (isOf (lex w)).map fun g => g c
    | .isIn xs =>
      if xs.length = 0 then none else some (.isIn false c ((List.range' (p + 1) xs.length).map paramEx))
    | .anyOf k _ => some (.quant [.op b!"="] b!"any" c (.cast (paramEx (p + 1)) (lex (Filter.arrayTypeName k))))
    | .search _ => some (.op b!"@@" c (.call b!"to_tsquery" [.const (.str b!"simple"), paramEx (p + 1)]))

def PredGram (x : Filter.Pred α) : Prop := (predTree 0 x).isSome = true

instance (x : Filter.Pred α) : Decidable (PredGram x) := by unfold PredGram; infer_instance

/-! ### Conditions -/

/-- What is joined: predicates and what is in parentheses by AND, and what AND has joined by OR. -/
inductive Level where
  | fact
  | conj
  | disj

/-- `Meant l p e q t`: at the level `l` and with `p` parameters before it, `e` means `t`, and then there are `q`
parameters. -/
inductive Meant : Level → Nat → List (Filter.Seg α) → Nat → Ex → Prop
  | pred {p x t} : predTree p x = some t → Meant .fact p [.pred x] (p + predParams x) t
  | paren {p e q t} : Meant .disj p e q t → Meant .fact p (.opn :: e ++ [.cls]) q t
  | fact {p e q t} : Meant .fact p e q t → Meant .conj p e q t
  | and {p a q t b r u} : Meant .conj p a q t → Meant .fact q b r u → Meant .conj p (a ++ .and :: b) r (.and t u)
  | conj {p e q t} : Meant .conj p e q t → Meant .disj p e q t
  | or {p a q t b r u} : Meant .disj p a q t → Meant .conj q b r u → Meant .disj p (a ++ .or :: b) r (.or t u)

/-- The condition of a filter with these predicates, if there are any. -/
inductive MeantWhere (p : Nat) : List (Filter.Seg α) → Option Ex → Prop
  | none : MeantWhere p [] none
  | some {e q t} : Meant .disj p e q t → MeantWhere p e (some t)

end

/-! ### ORDER BY, LIMIT, OFFSET -/

/-- The column makes sense by itself and is a column. -/
def ColText (x : Bytes) : Prop := Whole x ∧ (colOf (lex x)).isSome = true

/-- Without NULLS the nulls come first if the order is descending. -/
def itemTree (i : Filter.OrderItem) : OrderT := ⟨(colOf (lex i.column)).getD .star, i.desc, i.nulls.getD i.desc⟩

def countEx (n : Option Int64) : Option Ex := n.map fun n => .const (.num (itoa n.toInt.toNat))

/-! ### Statements -/

/-- What a filter adds to a statement. -/
structure FilterT where
  wher : Option Ex
  order : List OrderT
  limit : Option Ex
  offset : Option Ex
deriving Repr, DecidableEq

section
variable {α : Type} (f : α → Bytes)

/-- What is returned after the filter. -/
def tailVals : Tail α → List (VExpr α)
  | .update _ _ r => r
  | _ => []

/-- The statement with what the filter adds; UPDATE and DELETE have no place for more than conditions. -/
def filteredTree (x : FilterT) : Stmt α → Tail α → StT
  | .select cs t js _ _ _ _, _ =>
    .select ⟨cs.map (valTree f), relTree t, js.map (joinTree f), x.wher, x.order, x.limit, x.offset⟩
  | .count t js _ _ _, _ =>
    .select ⟨[.call b!"count" [.star]], relTree t, js.map (joinTree f), x.wher, x.order, x.limit, x.offset⟩
  | .exists_ n _ t js _ _ _ _, _ =>
    .exists_ n ⟨[.const (.num b!"1")], relTree t, js.map (joinTree f), x.wher, x.order, x.limit, x.offset⟩
  | .update t cs vs fr _ _, tl =>
    .update (relTree t) (cs.map .name) (vs.map (valTree f)) (tablesTree f fr) x.wher ((tailVals tl).map (valTree f))
  | .delete t us _ _, _ => .delete (relTree t) (tablesTree f us) x.wher []
  | s, _ => stmtTree f s

/-- The statement can be read up to where the filter begins. -/
def HeadGram : Stmt α → Prop
  | .insert .. => False
  | .update t cs vs fr _ _ => RelGram t ∧ cs.length ≥ 2 ∧ vs.length = cs.length ∧ ValsGram f vs ∧ TablesGram f fr
  | .select cs t js _ _ _ _ => ValsGram f cs ∧ RelGram t ∧ ∀ j ∈ js, JoinGram f j
  | .count t js _ _ _ => RelGram t ∧ ∀ j ∈ js, JoinGram f j
  | .exists_ _ _ t js _ _ _ _ => RelGram t ∧ ∀ j ∈ js, JoinGram f j
  | .delete t us _ _ => RelGram t ∧ TablesGram f us

/-- What is after the filter: RETURNING in an UPDATE. -/
def TailGram : Stmt α → Tail α → Prop
  | .update .., .update none none r => ValsGram f r
  | _, .none => True
  | _, _ => False

/-- The statement reads or counts, and may be sorted. -/
def sortable : Stmt α → Bool
  | .select .. | .count .. | .exists_ .. => true
  | _ => false

end

end Verif.Generator.Gram
