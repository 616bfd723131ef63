import Verif.Generator.FilterTrees
import Verif.Generator.Sem
import Verif.Filter.Conditions

/-
What the conditions of a filter mean: for the calls that were made on it, and for the tree that PostgreSQL reads.

This is the specification of C93. A condition is true, false or unknown (Sem.lean).
-/
namespace Verif.Generator.Gram
open Verif.Analysis Verif.Postgres Verif.Generator.Lex

section
variable {α V : Type}

/-- A row, and what the database does with values. -/
structure FRow (α V : Type) where
  /-- the column with these names -/
  col : List Tok → V
  /-- the value that is sent for a parameter of the filter -/
  sent : Filter.Param α → V
  /-- the operator with these tokens -/
  op : List Tok → V → V → B3
  /-- IS NULL and so on -/
  is : List Tok → V → B3
  /-- `= ANY` -/
  anyEq : V → V → B3
  cast : List Tok → V → V
  /-- `to_tsquery('simple', x)` -/
  tsquery : V → V

variable (R : FRow α V)

/-! ### What the calls ask for -/

/-- The names of the column that the tokens are. -/
def colNames (ts : List Tok) : List Tok :=
  match colOf ts with
  | some (.col p) => p
  | _ => []

/-- Whether the row satisfies the predicate. -/
def predHolds (x : Filter.Pred α) : B3 :=
  match x.form with
  | .cmp op v => R.op (lex op) (R.col (colNames (lex x.column))) (R.sent (.val v))
  | .is w => R.is (lex w) (R.col (colNames (lex x.column)))
  | .isIn xs => any3 (fun v => R.op [.op b!"="] (R.col (colNames (lex x.column))) (R.sent (.elem v))) xs
  | .anyOf k xs =>
    R.anyEq (R.col (colNames (lex x.column))) (R.cast (lex (Filter.arrayTypeName k)) (R.sent (.arr k xs)))
  | .search s => R.op [.op b!"@@"] (R.col (colNames (lex x.column))) (R.tsquery (R.sent (.text (Filter.tsQuery s))))

/-- What is joined by AND, between the ORs; `acc` are those already seen. -/
def runs (acc : List B3) : List (Bool × B3) → List (List B3)
  | [] => [acc]
  | (false, b) :: l => runs (acc ++ [b]) l
  | (true, b) :: l => acc :: runs [b] l

/-- Conditions, each with whether OR (or else AND) joins it to what is before it; true if there are none. -/
def seqVal : List (Bool × B3) → B3
  | [] => some true
  | (_, b) :: l => any3 (all3 id) (runs [b] l)

mutual
/-- Whether the row satisfies what a call asks for; none if it asks for nothing. UnmarshalFQL is not described. -/
def callVal (tscol : Bytes) : Filter.Call α → Option B3
  | .col column op v => (Filter.colPred column op v).map (predHolds R)
  | .colIn column xs => some (predHolds R ⟨column, .isIn xs⟩)
  | .colAny column k xs => some (predHolds R ⟨column, .anyOf k xs⟩)
  | .textSearch s => if tscol.length = 0 then none else some (predHolds R ⟨tscol, .search s⟩)
  | .andNest n => some (seqVal (callVals tscol n none))
  | .orNest n => some (seqVal (callVals tscol n none))
  | .unmarshalFQL _ _ => none
  | .and => none
  | .or => none
  | .orderBy .. => none
  | .orderByV2 .. => none
  | .limit _ => none
  | .offset _ => none
  | .page _ => none
  | .strictSwitch => none
  | .unmarshalSort _ => none
/-- The same for calls one after the other, with how each is joined to what is before it. -/
def callVals (tscol : Bytes) : List (Filter.Call α) → Option Bool → List (Bool × B3)
  | [], _ => []
  | x :: xs, o =>
    match callVal tscol x with
    | some b => (o.getD x.orByItself, b) :: callVals tscol xs none
    | none => callVals tscol xs (o.or x.joins)
end

/-- The meaning of a clause with AND before OR, and with parentheses; this covers what UnmarshalFQL adds. -/
inductive Says : Level → List (Filter.Seg α) → B3 → Prop
  | pred (x) : Says .fact [.pred x] (predHolds R x)
  | paren {e v} : Says .disj e v → Says .fact (.opn :: e ++ [.cls]) v
  | fact {e v} : Says .fact e v → Says .conj e v
  | and {a b v u} : Says .conj a v → Says .fact b u → Says .conj (a ++ .and :: b) (and3 v u)
  | conj {e v} : Says .conj e v → Says .disj e v
  | or {a b v u} : Says .disj a v → Says .conj b u → Says .disj (a ++ .or :: b) (or3 v u)

/-! ### What the trees say -/

/-- The value of a column, or of the parameter with a number. -/
def atomVal (ps : List V) : Ex → Option V
  | .col p => some (R.col p)
  | .const (.param n) => ps[Nat.ofDigitChars 10 n 0 - 1]?
  | _ => none

def exVal (ps : List V) : Ex → Option V
  | .cast x ty => (atomVal R ps x).map (R.cast ty)
  | .call fn [.const (.str d), x] => if fn = b!"to_tsquery" ∧ d = b!"simple" then (atomVal R ps x).map R.tsquery else none
  | x => atomVal R ps x

def binHolds (ps : List V) (o : List Tok) (a b : Ex) : Option B3 :=
  (exVal R ps a).bind fun x => (exVal R ps b).map (R.op o x)

def notTok (n : Bool) : List Tok := if n then [.word b!"not"] else []

def likeToks (k : Bytes) : List Tok := if k = b!"similar" then [.word b!"similar", .word b!"to"] else [.word k]

def leafHolds (ps : List V) : Ex → Option B3
  | .op o a b => binHolds R ps [.op o] a b
  | .like n k a b => binHolds R ps (notTok n ++ likeToks k) a b
  | .distinct n a b => binHolds R ps (.word b!"is" :: notTok n ++ [.word b!"distinct", .word b!"from"]) a b
  | .is n w a => (exVal R ps a).map (R.is (.word b!"is" :: notTok n ++ [.word w]))
  | .isIn false a l => (exVal R ps a).bind fun x => (l.mapM (exVal R ps)).map (any3 (R.op [.op b!"="] x))
  | .quant o q a b =>
    if o = [.op b!"="] ∧ q = b!"any" then (exVal R ps a).bind fun x => (exVal R ps b).map (R.anyEq x) else none
  | _ => none

/-- Whether the row satisfies the condition, if these are the values of the parameters. -/
def exHolds (ps : List V) : Ex → Option B3
  | .and a b => (exHolds ps a).bind fun x => (exHolds ps b).map (and3 x)
  | .or a b => (exHolds ps a).bind fun x => (exHolds ps b).map (or3 x)
  | e => leafHolds R ps e

end

end Verif.Generator.Gram
