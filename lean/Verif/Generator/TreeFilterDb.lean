import Verif.Generator.TreeDb
import Verif.Generator.FilterMeaning
import Verif.Filter.Spec

/-
What a filter asks of the rows of tables: which rows, and in which order.

This is the specification of C96; none of it is code of /repo. The conditions of a filter are explained in
FilterMeaning.lean for a row; here the row is one of joined tables.
-/
namespace Verif.Generator.Gram
open Verif.Analysis Verif.Postgres Verif.Generator.Lex

section
variable {α V : Type} [DecidableEq V] (S : TServer V) (sent : Filter.Param α → Option V)

/-- IS [NOT] NULL, TRUE or FALSE, by the words. -/
def TServer.isWords (ts : List Tok) (v : Option V) : B3 :=
  if ts = lex b!"IS NULL" then some v.isNone
  else if ts = lex b!"IS NOT NULL" then some v.isSome
  else if ts = lex b!"IS TRUE" then some (decide (S.truth v = some true))
  else if ts = lex b!"IS NOT TRUE" then some (decide (S.truth v ≠ some true))
  else if ts = lex b!"IS FALSE" then some (decide (S.truth v = some false))
  else if ts = lex b!"IS NOT FALSE" then some (decide (S.truth v ≠ some false))
  else none

/-- A row of joined tables as the conditions of a filter see it; `sent` is what the database gets for the values of
the filter. -/
def TServer.frow (j : Joined V) : FRow α (Option V) where
  col p := S.server.col j (colNamed p)
  sent := sent
  op := S.op
  is := S.isWords
  anyEq x y := any3 (S.op [.op b!"="] x) (S.elems y)
  cast _ v := v
  tsquery v := S.fn2 b!"to_tsquery" (S.const (.str b!"simple")) v

/-- The calls ask for the row: they ask for nothing, or what they ask for is true. -/
def TServer.Asks (cm : List (Bytes × Filter.Column α)) (tscol : Bytes) (calls : List (Filter.Call α)) (j : Joined V) : Prop :=
  Filter.joined (Filter.asked cm tscol calls none) = [] ∨
    Says (S.frow sent j) .disj (Filter.joined (Filter.asked cm tscol calls none)) (some true)

open Classical in
/-- The same as a truth value. -/
noncomputable def TServer.asks (cm : List (Bytes × Filter.Column α)) (tscol : Bytes) (calls : List (Filter.Call α))
    (j : Joined V) : Bool := decide (S.Asks sent cm tscol calls j)

/-- The first row does not come after the second in the order that the calls ask for; NULL comes first in descending
order and last in ascending order, unless asked otherwise. -/
def TServer.filterOrder (order : List Filter.OrderItem) (a b : Joined V) : Bool :=
  match order with
  | [] => true
  | o :: os =>
    let key := fun j => S.server.col j (colNamed (colNames (lex o.column)))
    S.server.lt o.desc (o.nulls.getD o.desc) (key a) (key b) ||
      (!S.server.lt o.desc (o.nulls.getD o.desc) (key b) (key a) && filterOrder os a b)

end

end Verif.Generator.Gram
