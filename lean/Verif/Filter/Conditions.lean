import Verif.Filter.Spec

/-!
Specification for C91: how the conditions that were asked for, by calls on a filter, are joined. Independent of the
list of nodes that the filter package keeps (filter/filter.go).
-/
namespace Verif.Filter
open Verif

variable {α : Type}

/-- What a token of FQL adds to the clause. -/
def Tok.says (colmap : List (Bytes × Column α)) : Tok α → Option (Seg α)
  | .lparen => some .opn
  | .rparen => some .cls
  | .and => some .and
  | .or => some .or
  | .rule k c v => (rulePred colmap k c v).map .pred

/-- Conditions, each with whether OR (or else AND) joins it to what is before it; for the first it does not matter. -/
def linked (l : List (Bool × List (Seg α))) : List (Seg α) :=
  l.flatMap fun x => (if x.1 then .or else .and) :: x.2

def joined : List (Bool × List (Seg α)) → List (Seg α)
  | [] => []
  | x :: l => x.2 ++ linked l

/-- Without `And()` or `Or()` before it, a condition is joined by AND, except for a group made with `Or(func)`. -/
def Call.orByItself : Call α → Bool
  | .orNest _ => true
  | _ => false

/-- `And()` and `Or()` say how the next condition is joined, unless that has been said. -/
def Call.joins : Call α → Option Bool
  | .and => some false
  | .or => some true
  | _ => none

mutual
/-- The condition that a call asks for. -/
def Call.asks (colmap : List (Bytes × Column α)) (tscol : Bytes) : Call α → Option (List (Seg α))
  | .col column op v => (colPred column op v).map fun p => [.pred p]
  | .colIn column xs => some [.pred ⟨column, .isIn xs⟩]
  | .colAny column k xs => some [.pred ⟨column, .anyOf k xs⟩]
  | .textSearch s => if tscol.length = 0 then none else some [.pred ⟨tscol, .search s⟩]
  | .andNest n => some (.opn :: joined (asked colmap tscol n none) ++ [.cls])
  | .orNest n => some (.opn :: joined (asked colmap tscol n none) ++ [.cls])
  | .unmarshalFQL ts _ => some (ts.filterMap (Tok.says colmap))
  | .and => none
  | .or => none
  | .orderBy .. => none
  | .orderByV2 .. => none
  | .limit _ => none
  | .offset _ => none
  | .page _ => none
  | .strictSwitch => none
  | .unmarshalSort _ => none
/-- The conditions that a sequence of calls asks for. -/
def asked (colmap : List (Bytes × Column α)) (tscol : Bytes) : List (Call α) → Option Bool → List (Bool × List (Seg α))
  | [], _ => []
  | x :: xs, o =>
    match x.asks colmap tscol with
    | some e => (o.getD x.orByItself, e) :: asked colmap tscol xs none
    | none => asked colmap tscol xs (o.or x.joins)
end

end Verif.Filter
