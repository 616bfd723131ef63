import Verif.Generator.PropsNull2
import Verif.Generator.PropsBatch2

/-
What statements do to the tables of a database: the part of PostgreSQL that the generated statements use.
This is a specification; none of it is code of /repo.

A table is a list of rows, a row gives each column a value or NULL.  Which order the rows of a table have,
and with which of several joined rows a row is updated, is not determined.  Constraints are not modelled
apart from the index that an ON CONFLICT clause names: a statement that the database refuses does nothing,
and the relations below are about statements that it carries out.
-/
namespace Verif.Generator
open Verif.Analysis Verif.Postgres

/-- The values of the columns; `none` is NULL. -/
abbrev Row (V : Type) := Bytes → Option V

/-- Rows of several tables, each with the name that the statement gives the table. -/
abbrev Joined (V : Type) := List (RelIdent × Row V)

/-- The rows of the tables, by schema and name. -/
abbrev Tables (V : Type) := Bytes × Bytes → List (Row V)

def tableOf (r : RelIdent) : Bytes × Bytes := (r.qualifier, r.name)

/-- What else a database knows. -/
structure Server (V : Type) extends SqlWorld V where
  call : Bytes → Option V → Option V
  op : Bytes → Option V → Option V → B3
  truth : Option V → B3
  elems : Option V → List (Option V)
  /-- the table has a column of that name -/
  has : Bytes × Bytes → Bytes → Bool
  /-- the value of the column in a row for which none is given -/
  default : Bytes × Bytes → Bytes → Option V
  /-- the first value does not come after the second -/
  le : V → V → Bool
  /-- the value as a number of rows -/
  nat : V → Nat
  /-- the number as a value -/
  ofNat : Nat → V
  /-- the truth value as a value -/
  ofBool : Bool → V
  /-- the two rows have the same key for the index, or one of those meant by the target of ON CONFLICT -/
  clash : Bytes × Bytes → Option ConflictTarget → Row V → Row V → Bool

/-- The values of the fields of the query struct as the database gets them, by their path. -/
abbrev Fields (V : Type) := List Bytes → Option V

section
variable {V : Type} (S : Server V)

/-! ### Columns -/

/-- The name by which a statement refers to the table. -/
def knownAs (r : RelIdent) : Bytes := if r.alias = [] then r.name else r.alias

/-- The column is one of the table: it is qualified with its name, or it is not qualified and the table has
such a column. -/
def Server.owns (r : RelIdent) (c : ColIdent) : Bool :=
  if c.qualifier = [] then S.has (tableOf r) c.name else decide (c.qualifier = knownAs r)

/-- The value of a column. -/
def Server.col (j : Joined V) (c : ColIdent) : Option V :=
  match j.find? fun x => S.owns x.1 c with
  | some x => x.2 c.name
  | none => none

/-- What conditions talk about. -/
def Server.cond (field : Fields V) (j : Joined V) : CondWorld (Option V) where
  col := S.col j
  lit := S.lit
  call := S.call
  op := S.op
  isNull v := v.isNone
  truth := S.truth
  elems := S.elems
  field := field

/-- A list of conditions is true; no list is no condition. -/
def Server.holds (field : Fields V) (w : Option (BList GoExpr)) (j : Joined V) : Bool :=
  match w with
  | none => true
  | some l => decide (evalList (S.cond field j) l = some (some true))

variable [DecidableEq V]

/-- The value of an expression. -/
def Server.value (field : Fields V) (j : Joined V) (x : VExpr GoExpr) : Option V :=
  S.val (fun a => field (goPath a)) (S.col j) x

/-! ### Joins -/

/-- A joined table: how it is joined, its name, and which rows belong together. -/
structure JoinOf (V : Type) where
  type : Option JoinType
  rel : RelIdent
  on : Joined V → Bool

def nullRow' : Row V := fun _ => none

/-- The rows on the right that belong to the one on the left, joined with it. -/
def JoinOf.matches (j : JoinOf V) (right : List (Row V)) (l : Joined V) : List (Joined V) :=
  (right.map fun r => l ++ [(j.rel, r)]).filter j.on

/-- The rows of the joined table without one on the left; `names` are the tables on the left. -/
def JoinOf.unmatched (j : JoinOf V) (names : List RelIdent) (left : List (Joined V)) (right : List (Row V)) :
    List (Joined V) :=
  (right.filter fun r => !left.any fun l => j.on (l ++ [(j.rel, r)])).map fun r =>
    names.map (fun n => (n, nullRow')) ++ [(j.rel, r)]

/-- The rows on the left joined with those of the table; a LEFT or FULL JOIN keeps those without a row on
the right. -/
def JoinOf.lefts (j : JoinOf V) (left : List (Joined V)) (right : List (Row V)) : List (Joined V) :=
  left.flatMap fun l =>
    if (j.type = some .left ∨ j.type = some .full) ∧ (j.matches right l).length = 0 then
      [l ++ [(j.rel, nullRow')]]
    else j.matches right l

def JoinOf.step (j : JoinOf V) (names : List RelIdent) (left : List (Joined V)) (right : List (Row V)) :
    List (Joined V) :=
  j.lefts left right ++
    if j.type = some .right ∨ j.type = some .full then j.unmatched names left right else []

/-- The first table joined with the others, from left to right. -/
def joinAll (T : Tables V) : List RelIdent → List (Joined V) → List (JoinOf V) → List (Joined V)
  | _, left, [] => left
  | names, left, j :: js => joinAll T (names ++ [j.rel]) (j.step names left (T (tableOf j.rel))) js

/-- The rows of a table and of those joined to it. -/
def sources (T : Tables V) (r : RelIdent) (js : List (JoinOf V)) : List (Joined V) :=
  joinAll T [r] ((T (tableOf r)).map fun x => [(r, x)]) js

/-- The condition of a joined table; CROSS JOIN has none. -/
def Server.joinOf (field : Fields V) (j : TableJoin GoExpr) : JoinOf V where
  type := j.type
  rel := j.rel
  on s :=
    match j.cond with
    | .nil => true
    | l => S.holds field (some l) s

/-! ### ORDER BY, LIMIT, OFFSET -/

/-- A value comes strictly before another: NULL first or last, the others in their order or the reverse. -/
def Server.lt (desc nullsFirst : Bool) : Option V → Option V → Bool
  | none, none => false
  | none, some _ => nullsFirst
  | some _, none => !nullsFirst
  | some x, some y => if desc then !S.le x y else !S.le y x

/-- The first row does not come after the second: at the first column in which one of them comes before
the other, it is the first. -/
def Server.notAfter (order : List OrderBy) (a b : Joined V) : Bool :=
  match order with
  | [] => true
  | o :: os =>
    S.lt o.desc o.nullsFirst (S.col a o.column) (S.col b o.column) ||
      (!S.lt o.desc o.nullsFirst (S.col b o.column) (S.col a o.column) && notAfter os a b)

/-- The number of rows that a LIMIT or OFFSET clause says; NULL says nothing. -/
def Server.rows (field : Fields V) : LimitVal GoExpr → Option Nat
  | .none => none
  | .int n => some n
  | .param a => (field (goPath a)).map S.nat

/-- The rows from the offset on, at most as many as the limit. -/
def window {α : Type} (limit offset : Option Nat) (l : List α) : List α :=
  let l := l.drop (offset.getD 0)
  match limit with
  | none => l
  | some n => l.take n

/-! ### Changes -/

/-- A value of a VALUES list or of SET: `none` is DEFAULT. -/
def Server.cell (field : Fields V) (j : Joined V) : VExpr GoExpr → Option (Option V)
  | .default => none
  | x => some (S.value field j x)

/-- What a column is set to: the value at its place in the list of columns, or the default; nothing if it is
not listed. -/
def Server.setTo (t : Bytes × Bytes) : List Bytes → List (Option (Option V)) → Bytes → Option (Option V)
  | c :: cs, v :: vs, n => if c = n then some (v.getD (S.default t n)) else setTo t cs vs n
  | _, _, _ => none

/-- The row for a list of values. -/
def Server.newRow (t : Bytes × Bytes) (cols : List Bytes) (vals : List (Option (Option V))) : Row V :=
  fun n => (S.setTo t cols vals n).getD (S.default t n)

/-- The row with some columns set. -/
def Server.assign (t : Bytes × Bytes) (cols : List Bytes) (vals : List (Option (Option V))) (r : Row V) : Row V :=
  fun n => (S.setTo t cols vals n).getD (r n)

/-- The row with some columns taken from another. -/
def takeOver (cols : List Bytes) (new r : Row V) : Row V := fun n => if n ∈ cols then new n else r n

/-- The rows after one is inserted, and the row to be returned, if any. -/
def Server.insertOne (t : Bytes × Bytes) (conflict : Option ConflictClause) (new : Row V) (rows : List (Row V)) :
    List (Row V) × Option (Row V) :=
  match conflict with
  | none => (rows ++ [new], some new)
  | some k =>
    match rows.find? (S.clash t k.target new) with
    | none => (rows ++ [new], some new)
    | some old =>
      if k.update.length = 0 then (rows, none)
      else
        (rows.map fun r => if S.clash t k.target new r then takeOver k.update new r else r,
          some (takeOver k.update new old))

/-- The same for several rows, one after the other. -/
def Server.insertAll (t : Bytes × Bytes) (conflict : Option ConflictClause) :
    List (Row V) → List (Row V) → List (Row V) × List (Row V)
  | [], rows => (rows, [])
  | new :: more, rows =>
    let a := S.insertOne t conflict new rows
    let b := insertAll t conflict more a.1
    (b.1, a.2.toList ++ b.2)

/-- The tables with one of them changed. -/
def setTable (T : Tables V) (t : Bytes × Bytes) (rows : List (Row V)) : Tables V :=
  fun u => if u = t then rows else T u

/-- The rows of FROM or USING: a table with those joined to it; without a list there is one row without
columns. -/
def Server.others (field : Fields V) (T : Tables V) : List (TableExpr GoExpr) → List (Joined V)
  | .rel r :: js => sources T r ((js.filterMap TableExpr.asJoin).map (S.joinOf field))
  | _ => [[]]

/-- A row of the changed table and the row of the other tables with which it satisfies the condition; `none`
if there is no such row. -/
def Chosen (others : List (Joined V)) (asked : Joined V → Bool) (x : RelIdent × Row V) : Option (Joined V) → Prop
  | none => ∀ o ∈ others, asked (x :: o) = false
  | some o => o ∈ others ∧ asked (x :: o) = true

/-- A row returned. -/
def Server.output (field : Fields V) (j : Joined V) (cols : List (VExpr GoExpr)) : List (Option V) :=
  cols.map (S.value field j)

/-- The statement leads from the tables `T` to the tables `T'` and returns the rows `out`. -/
def Server.Does (field : Fields V) (T : Tables V) (T' : Tables V) (out : List (List (Option V))) :
    Stmt GoExpr → Prop
  | .select cols table joins wher order limit offset =>
    T' = T ∧ ∃ l, l.Perm ((sources T table (joins.map (S.joinOf field))).filter (S.holds field wher)) ∧
      l.Pairwise (fun a b => S.notAfter order a b = true) ∧
      out = (window (S.rows field limit) (S.rows field offset) l).map fun j => S.output field j cols
  | .count table joins wher order offset =>
    -- ORDER BY a column is an error, as the rows are not grouped by it
    T' = T ∧ order = [] ∧
      out = window none (S.rows field offset)
        [[some (S.ofNat ((sources T table (joins.map (S.joinOf field))).filter (S.holds field wher)).length)]]
  | .exists_ not _ table joins wher _ limit offset =>
    T' = T ∧
      let found := window (S.rows field limit) (S.rows field offset)
        ((sources T table (joins.map (S.joinOf field))).filter (S.holds field wher))
      out = [[some (S.ofBool (if not then found.isEmpty else !found.isEmpty))]]
  | .insert table cols _ vals conflict returning =>
    ∃ vs, vals = some vs ∧
      let r := S.insertOne (tableOf table) conflict
        (S.newRow (tableOf table) cols (vs.map (S.cell field []))) (T (tableOf table))
      T' = setTable T (tableOf table) r.1 ∧
      out = r.2.toList.map fun x => S.output field [(table, x)] returning
  | .update table cols vals from_ wher returning =>
    ∃ ch : List (Row V × Option (Joined V)),
      ch.map (·.1) = T (tableOf table) ∧
      (∀ x ∈ ch, Chosen (S.others field T from_) (S.holds field wher) (table, x.1) x.2) ∧
      let change := fun (old : Row V) (o : Joined V) =>
        S.assign (tableOf table) cols (vals.map (S.cell field ((table, old) :: o))) old
      T' = setTable T (tableOf table) (ch.map fun x => x.2.elim x.1 (change x.1)) ∧
      out = ch.filterMap fun x => x.2.map fun o => S.output field ((table, change x.1 o) :: o) returning
  | .delete table using_ wher returning =>
    ∃ ch : List (Row V × Option (Joined V)),
      ch.map (·.1) = T (tableOf table) ∧
      (∀ x ∈ ch, Chosen (S.others field T using_) (S.holds field wher) (table, x.1) x.2) ∧
      T' = setTable T (tableOf table) ((ch.filter fun x => x.2.isNone).map (·.1)) ∧
      out = ch.filterMap fun x => x.2.map fun o => S.output field ((table, x.1) :: o) returning

end
end Verif.Generator
