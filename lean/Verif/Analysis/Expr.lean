import Verif.Analysis.Ident

/-
Predicates, quantifiers and predicate expressions.
/repo/internal/analysis/enums.go:228-416 (Quantifier, Predicate and their tables),
/repo/internal/analysis/analysis.go:1809-1911 (parsePredicateExpr).
-/
namespace Verif.Analysis

/-- enums.go:229-236; the zero value "no operator" is `none`. -/
inductive Quant where
  | any | some | all
deriving Repr, DecidableEq

/-- enums.go:238-251. -/
def quantTable : List (Bytes × Quant) :=
  [(b!"any", .any), (b!"some", .some), (b!"all", .all)]

/-- enums.go:247: `stringToQuantifier`; a missing key gives the zero value. -/
def stringToQuantifier (s : Bytes) : Option Quant := List.lookup s quantTable

/-- enums.go:254-311; the zero value "no predicate" is `none`. -/
inductive Pred where
  | isEQ | notEQ | notEQ2 | isLT | isGT | isLTE | isGTE | isDistinct | notDistinct
  | isMatch | isMatchi | notMatch | notMatchi | isLike | notLike | isILike | notILike
  | isSimilar | notSimilar
  | isIn | notIn
  | isBetween | notBetween | isBetweenSym | notBetweenSym | isBetweenAsym | notBetweenAsym
  | isNull | notNull
  | isTrue | notTrue | isFalse | notFalse | isUnknown | notUnknown
deriving Repr, DecidableEq

/-- enums.go:313-353: the array `predicates`. -/
def predTable : List (Bytes × Pred) :=
  [(b!"=", .isEQ), (b!"<>", .notEQ), (b!"!=", .notEQ2), (b!"<", .isLT), (b!">", .isGT),
   (b!"<=", .isLTE), (b!">=", .isGTE), (b!"isdistinct", .isDistinct),
   (b!"notdistinct", .notDistinct),
   (b!"~", .isMatch), (b!"~*", .isMatchi), (b!"!~", .notMatch), (b!"!~*", .notMatchi),
   (b!"islike", .isLike), (b!"notlike", .notLike), (b!"isilike", .isILike),
   (b!"notilike", .notILike), (b!"issimilar", .isSimilar), (b!"notsimilar", .notSimilar),
   (b!"isin", .isIn), (b!"notin", .notIn),
   (b!"isbetween", .isBetween), (b!"notbetween", .notBetween),
   (b!"isbetweensym", .isBetweenSym), (b!"notbetweensym", .notBetweenSym),
   (b!"isbetweenasym", .isBetweenAsym), (b!"notbetweenasym", .notBetweenAsym),
   (b!"isnull", .isNull), (b!"notnull", .notNull), (b!"istrue", .isTrue),
   (b!"nottrue", .notTrue), (b!"isfalse", .isFalse), (b!"notfalse", .notFalse),
   (b!"isunknown", .isUnknown), (b!"notunknown", .notUnknown)]

/-- enums.go:407-416: `stringToPredicate`, filled from the table. -/
def stringToPredicate (s : Bytes) : Option Pred := List.lookup s predTable

namespace Pred
/-- enums.go:373. -/
def isBinary : Pred → Bool
  | isEQ | notEQ | notEQ2 | isLT | isGT | isLTE | isGTE | isDistinct | notDistinct => true
  | _ => false
/-- enums.go:382. -/
def isPatternMatch : Pred → Bool
  | isMatch | isMatchi | notMatch | notMatchi | isLike | notLike | isILike | notILike
  | isSimilar | notSimilar => true
  | _ => false
/-- enums.go:388. -/
def isArray : Pred → Bool
  | isIn | notIn => true
  | _ => false
/-- enums.go:385. -/
def isRange : Pred → Bool
  | isBetween | notBetween | isBetweenSym | notBetweenSym | isBetweenAsym | notBetweenAsym => true
  | _ => false
/-- enums.go:376 `IsNull`. -/
def isNullTest : Pred → Bool
  | isNull | notNull => true
  | _ => false
/-- enums.go:379. -/
def isBoolean : Pred → Bool
  | isTrue | notTrue | isFalse | notFalse | isUnknown | notUnknown => true
  | _ => false
/-- enums.go:391. -/
def isUnary (p : Pred) : Bool := p.isNullTest || p.isBoolean
/-- enums.go:394. -/
def canQuantify (p : Pred) : Bool := p.isBinary || p.isPatternMatch
end Pred

/-- enums.go:356-368. -/
def predicateAdjectives : List Bytes :=
  [b!"between", b!"betweensym", b!"distinct", b!"false", b!"ilike", b!"in", b!"like", b!"null",
   b!"similar", b!"true", b!"unknown"]

/-- What one iteration of the loop of parsePredicateExpr does. -/
inductive Step where
  /-- `continue` -/
  | cont
  /-- `break` with nothing assigned -/
  | stop
  /-- operator found: its text and what follows it -/
  | hit (cop rhs : Bytes)
deriving Repr, DecidableEq

/-- analysis.go:1859-1871: the adjective, if any, with which `pred2` begins. -/
def findAdj (pred2 : Bytes) : List Bytes → Option Bytes
  | [] => none
  | adj :: adjs =>
    if pred2.take adj.length = adj ∧ (pred2.length = adj.length ∨ pred2[adj.length]? = some ' ')
    then some adj
    else findAdj pred2 adjs

/-- analysis.go:1844-1876, the case of a blank; `r` is what follows it. -/
def wordStep (r : Bytes) : Step :=
  let x := lower r
  let p : Option (Bytes × Bytes) :=
    if x.length > 3 ∧ x.take 3 = b!"not" then some (x.take 3, x.drop 3)
    else if x.length > 2 ∧ x.take 2 = b!"is" then some (x.take 2, x.drop 2)
    else none
  match p with
  | none => .cont
  | some (pred1, pred2) =>
    match findAdj pred2 predicateAdjectives with
    | none => .cont
    | some adj => .hit (pred1 ++ adj) (r.drop (pred1 ++ adj).length)

/-- analysis.go:1820-1825. -/
def bangStep : Bytes → Step
  | '~' :: '*' :: r => .hit b!"!~*" r
  | '=' :: r => .hit b!"!=" r
  | '~' :: r => .hit b!"!~" r
  | _ => .stop
/-- analysis.go:1826-1831. -/
def ltStep : Bytes → Step
  | '=' :: r => .hit b!"<=" r
  | '>' :: r => .hit b!"<>" r
  | r => .hit b!"<" r
/-- analysis.go:1832-1837. -/
def gtStep : Bytes → Step
  | '=' :: r => .hit b!">=" r
  | r => .hit b!">" r
/-- analysis.go:1838-1843. -/
def tildeStep : Bytes → Step
  | '*' :: r => .hit b!"~*" r
  | r => .hit b!"~" r

/-- One iteration of the loop, analysis.go:1817-1880, at a character and what follows it. -/
def exprStep (c : Char) (r : Bytes) : Step :=
  if c = '=' then .hit b!"=" r
  else if c = '!' then bangStep r
  else if c = '<' then ltStep r
  else if c = '>' then gtStep r
  else if c = '~' then tildeStep r
  else if c = ' ' then wordStep r
  else .cont

/-- The loop of analysis.go:1816-1881: (lhs, cop, rhs), or `none` if nothing was assigned. -/
def scanExpr : Bytes → Option (Bytes × Bytes × Bytes)
  | [] => none
  | c :: cs =>
    match exprStep c cs with
    | .hit cop rhs => some ([], cop, rhs)
    | .stop => none
    | .cont => (scanExpr cs).map fun p => (c :: p.1, p.2.1, p.2.2)

/-- analysis.go:1887-1904: split off a leading quantifier. -/
def cutQuant (rhs : Bytes) : Bytes × Bytes :=
  let x := lower rhs
  if (x.take 3 = b!"any" ∨ x.take 3 = b!"all") ∧ (x.length = 3 ∨ x[3]? = some ' ') then
    (x.take 3, rhs.drop 3)
  else if x.take 4 = b!"some" ∧ (x.length = 4 ∨ x[4]? = some ' ') then
    (x.take 4, rhs.drop 4)
  else ([], rhs)

/-- The four results of parsePredicateExpr. -/
structure PExpr where
  lhs : Bytes
  op : Bytes := []
  quant : Bytes := []
  rhs : Bytes := []
deriving Repr, DecidableEq

/-- analysis.go:1813-1911. -/
def parsePredicateExpr (expr : Bytes) : PExpr :=
  match scanExpr (trim expr) with
  | none => { lhs := trim expr }
  | some (lhs, cop, rhs) =>
    if (trim lhs).length = 0 then { lhs := trim expr }
    else
      { lhs := trim lhs, op := trim cop, quant := trim (cutQuant (trim rhs)).1,
        rhs := trim (cutQuant (trim rhs)).2 }

end Verif.Analysis
