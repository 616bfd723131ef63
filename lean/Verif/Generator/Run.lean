import Verif.Generator.Gen
import Verif.Gosql.Model

/-
What the generated method does when it is called, up to the call of the database:
/repo/internal/generator/generator.go:211-217 (order of the statements), 591-624, 1444-1594, 1597-1696,
1699-1745, 1747-1772, 2188-2216.

The generated Go statements are not represented; each function below is what running the statements built
by the lines cited does.  `none` is a run-time panic.  The static text of a query is printed by
github.com/frk/ast/sqlang, so it is a parameter here.
-/
namespace Verif.Generator
open Verif.Analysis Verif.Postgres

/-- A value passed to the database; `nil` is what an element of a new []interface{} holds. -/
inductive Val where
  | nil
  | int (n : Int)
  | data (b : Bytes)
  | conv (fn : Bytes) (v : Val)
deriving Repr, DecidableEq

/-- What a call finds: the fields of the query, the elements of its slices, the fields of each record of
the relation (`v` in the loop), and the result of `q.Filter.ToSQL(n)`. -/
structure World where
  field : GoExpr → Val
  slice : GoExpr → List Val := fun _ => []
  records : List (GoExpr → Val) := []
  filter : Nat → Bytes × List Val := fun _ => ([], [])

def eval (field : GoExpr → Val) : GoExpr → Val
  | .conv fn x => .conv fn (eval field x)
  | x => field x

/-- `params[i] = v`. -/
def setAt (params : List Val) (i : Int) (v : Val) : Option (List Val) :=
  if 0 ≤ i ∧ i.toNat < params.length then some (params.set i.toNat v) else none

/-- `params[i] = v` for consecutive indexes. -/
def assignFrom (params : List Val) (i : Int) : List Val → Option (List Val)
  | [] => some params
  | v :: vs => (setAt params i v).bind fun p => assignFrom p (i + 1) vs

/-- `make([]interface{}, n)`. -/
def makeParams (n : Int) : Option (List Val) :=
  if 0 ≤ n then some (List.replicate n.toNat .nil) else none

/-! ### Slices of IN predicates -/

/-- generator.go:1622-1633: `pos1 = nstatic`, `pos<k+1> = pos<k> + len<k>`. -/
def positions (pos : Int) : List Nat → List Int
  | [] => []
  | l :: ls => pos :: positions (pos + l) ls

/-- generator.go:1673-1692: one loop for each slice. -/
def assignSlices (params : List Val) : List (Int × List Val) → Option (List Val)
  | [] => some params
  | (pos, vs) :: rest => (assignFrom params pos vs).bind fun p => assignSlices p rest

/-- The sizes of the slices: `len<k>`. -/
def sliceLens (w : World) (c : Code) : List Nat := c.g.slices.map fun s => (w.slice s).length

/-- generator.go:1597-1696. -/
def sliceParams (w : World) (c : Code) : Option (List Val) :=
  (makeParams (c.g.num + (sliceLens w c).sum)).bind fun p =>
  (assignFrom p 0 (c.args.map (eval w.field))).bind fun p =>
    assignSlices p ((positions c.g.num (sliceLens w c)).zip (c.g.slices.map w.slice))

/-- The text standing for a run-time value: generator.go:1359-1369 for a list. -/
def slotText (w : World) (c : Code) : Slot → Option Bytes
  | .num n => if 1 ≤ n then some (ordinal n.toNat) else none
  | .slice k =>
    ((sliceLens w c)[k - 1]?).bind fun l =>
    ((positions c.g.num (sliceLens w c))[k - 1]?).bind fun p => inValueList l p

/-! ### Limit and offset -/

/-- generator.go:593-604: `if q.Limit == 0 { q.Limit = N }`. -/
def fallbackOne (l : Option LimitField) (field : GoExpr → Val) : GoExpr → Val :=
  match l with
  | none => field
  | some l =>
    if l.value > 0 ∧ l.name.length > 0 ∧ field (.sel recv l.name) = .int 0 then
      fun x => if x = .sel recv l.name then .int l.value else field x
    else field

/-- generator.go:591-624. -/
def fallback (q : Query) (w : World) : World :=
  { w with field := fallbackOne q.offset (fallbackOne q.limit w.field) }

/-! ### Slices of records -/

/-- generator.go:1466-1511: the assignments of the loop over the records. -/
def assignRecords (args : List GoExpr) (params : List Val) (i : Int) :
    List (GoExpr → Val) → Option (List Val)
  | [] => some params
  | r :: rs =>
    (assignFrom params (i * args.length) (args.map (eval r))).bind fun p =>
      assignRecords args p (i + 1) rs

/-- generator.go:1456-1511. -/
def recordParams (w : World) (c : Code) : Option (List Val) :=
  (makeParams (w.records.length * c.args.length)).bind fun p => assignRecords c.args p 0 w.records

/-- SQL.MustToString of the second argument of a NULLIF. -/
def litText {α : Type} : VExpr α → Bytes
  | .lit s => s
  | _ => []

/-- What surrounds the parameter: generator.go:1551-1564. -/
def cellFrame {α : Type} : VExpr α → Bytes × Bytes
  | .nullif _ y => (b!"NULLIF(", b!", " ++ litText y ++ b!")")
  | .cast (.nullif _ y) t => (b!"NULLIF(", b!", " ++ litText y ++ b!")::" ++ t)
  | .cast _ t => ([], b!"::" ++ t)
  | _ => ([], [])

/-- generator.go:1527-1535. -/
def isDefault {α : Type} : VExpr α → Bool
  | .default => true
  | _ => false

/-- generator.go:1528-1531. -/
def cellSep (i : Nat) : Bytes := if i = 0 then b!"(" else b!", "

/-- generator.go:1527-1569 and the strings added for one record: `i` is the index, `dc` is `defaultCount`,
`pos` the value of the variable `pos`. -/
def rowCells {α : Type} (pos : Nat) : Nat → Nat → List (VExpr α) → Option Bytes
  | _, _, [] => some b!"),"
  | i, dc, v :: vs =>
    if isDefault v then
      (rowCells pos (i + 1) (dc + 1) vs).map fun rest => cellSep i ++ b!"DEFAULT" ++ rest
    else
      (ordinalAtInt (pos + ((i : Int) - dc))).bind fun o =>
      (rowCells pos (i + 1) dc vs).map fun rest =>
        cellSep i ++ (cellFrame v).1 ++ o ++ (cellFrame v).2 ++ rest

/-- generator.go:1474-1576: the text added by the loop over the records, from record `i` on. -/
def recordRows (c : Code) (i : Nat) : Nat → Option Bytes
  | 0 => some []
  | n + 1 =>
    (rowCells (i * c.args.length) 0 0 c.rowVals).bind fun r =>
    (recordRows c (i + 1) n).map fun rest => r ++ rest

/-- generator.go:1444-1594: the query; `main` is the static text, `tail` that of the rest, if any. -/
def recordText (w : World) (c : Code) (main : Bytes) (tail : Option Bytes) : Option Bytes :=
  (recordRows c 0 w.records.length).bind fun rows =>
    let text := main ++ rows
    if text.length = 0 then none
    else
      match tail with
      | none => some (text.take (text.length - 1))
      | some t => some (text.take (text.length - 1) ++ b!" " ++ t)

/-! ### The call -/

/-- generator.go:2203: the arguments are in `params`. -/
def passesParams (q : Query) (c : Code) : Bool :=
  decide (c.g.slices.length > 0) || q.filter.isSome ||
    (isInsertOrUpdateSlice q && decide (c.args.length > 0))

/-- generator.go:194-203: `params` after the statements that make the query string. -/
def buildParams (q : Query) (w : World) (c : Code) : Option (List Val) :=
  if isInsertOrUpdateSlice q then recordParams w c
  else if c.g.slices.length > 0 then sliceParams w c
  else if q.filter.isSome then some (w.filter c.args.length).2
  else some []

/-- generator.go:1747-1772. -/
def addFilterParams (q : Query) (w : World) (c : Code) (params : List Val) : List Val :=
  if q.filter.isSome ∧ q.kind = .update then c.args.map (eval w.field) ++ params else params

/-- The arguments given to the database, after the query string: generator.go:211-217, 2188-2216. -/
def sentArgs (q : Query) (w : World) (c : Code) : Option (List Val) :=
  (buildParams q w c).map fun p =>
    if passesParams q c then addFilterParams q (fallback q w) c p
    else c.args.map (eval (fallback q w).field)

/-- generator.go:1699-1745: the query string with a filter. -/
def filterText (w : World) (c : Code) (main : Bytes) (tail : Option Bytes) : Bytes :=
  main ++ (w.filter c.args.length).1 ++ (if c.sql.closeFilter then b!")" else []) ++
    (match tail with
     | none => []
     | some t => b!" " ++ t)

end Verif.Generator
