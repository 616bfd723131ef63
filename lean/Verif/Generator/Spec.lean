import Verif.Generator.Gen

/-
What a generated statement should say: the statement with, in place of each parameter, the Go expression
whose value belongs there.  No parameters are counted here.
-/
namespace Verif.Generator
open Verif.Analysis Verif.Postgres

/-- The Go expression that is bound to a slot when `args` are passed to the database and `slices` are
spread: `$n` is the n-th argument, the k-th list of values is the k-th slice. -/
def resolve (args slices : List GoExpr) : Slot → Option GoExpr
  | .num n => if 1 ≤ n then args[(n - 1).toNat]? else none
  | .slice k => if 1 ≤ k then slices[k - 1]? else none

/-- The value written to the column of a field. -/
def writeSpec (q : Query) (w : FieldWrite) : VExpr GoExpr :=
  if canUseDefault q w.field then .default
  else if w.needsNullif then addNullif (.param (writeArg q w)) w.column
  else .param (writeArg q w)

/-- A column compared with a field of the where struct selected by `sx`. -/
def fieldSpec (sx : GoExpr) (f : FieldConditional) : BExpr GoExpr :=
  formExpr (addCall f.func (.col f.colIdent))
    (addQuant f.quant (quantType f) (addCall f.func (.param (addConv f.valuer (.sel sx f.fieldName)))))
    (.sel sx f.fieldName) (predForm f.pred)

/-- A column by itself or compared with a column or a literal. -/
def columnSpec (c : ColumnConditional) : BExpr GoExpr :=
  formExpr (.col c.lhs) (addQuant c.quant [] (rhsExpr c.rhs)) noSel (predForm c.pred)

def boundSpec (sx : GoExpr) : RangeBound → VExpr GoExpr
  | .column c => .col (rhsCol c.rhs)
  | .field f => .param (addConv f.valuer (.sel sx f.fieldName))

mutual
def condSpec (sx : GoExpr) : Cond → BExpr GoExpr
  | .bool _ => .bare .absent
  | .nested n items => .group (condListSpec (.sel sx n) true none items)
  | .field f => fieldSpec sx f
  | .column c => columnSpec c
  | .between b =>
    .between (.col b.colIdent) (boundSpec (.sel sx b.fieldName) b.lower)
      (boundSpec (.sel sx b.fieldName) b.upper)
def condListSpec (sx : GoExpr) (first : Bool) (boolean : Option Bool) : List Cond → BList GoExpr
  | [] => .nil
  | c :: cs =>
    match isBool c with
    | some b => condListSpec sx false (some b) cs
    | none => addItem first boolean (condSpec sx c) (condListSpec sx false boolean cs)
end

/-- The expression that holds a primary key of the record: the argument of the field if it is written
as well. -/
def pkeyExpr (q : Query) (t : TargetInfo) (w : FieldWrite) : GoExpr :=
  match t.writes.find? fun v => v.idx = w.idx with
  | some v => writeArg q v
  | none => fieldSel (inputRoot q) w.field

/-- The record with the same primary key. -/
def pkeySpec (q : Query) (t : TargetInfo) (first : Bool) : List FieldWrite → BList GoExpr
  | [] => .nil
  | w :: ws =>
    .cons (if first then .initial else .and)
      (.binary .eq (.col w.colIdent) (.param (pkeyExpr q t w))) (pkeySpec q t false ws)

def whereSpec (q : Query) (t : TargetInfo) : Option (BList GoExpr) :=
  if isUpdateWithPKeys q then some (pkeySpec q t true t.pkeys)
  else
    match q.wher with
    | none => none
    | some w =>
      if t.wher.length > 0 then some (condListSpec (.sel recv w.fieldName) true none t.wher) else none

def joinSpec (d : JoinDir) (cs : List JoinCond) : TableJoin GoExpr :=
  { type := d.joinType, rel := d.relIdent, cond := condListSpec noSel true none (cs.map joinCond) }

def joinsSpec (q : Query) (t : TargetInfo) : List (TableJoin GoExpr) :=
  match q.join with
  | none => []
  | some j => List.zipWith joinSpec j.directives t.joins

def limitValSpec (l : LimitField) : LimitVal GoExpr :=
  if l.name.length > 0 then .param (.sel recv l.name)
  else if l.value > 0 then .int l.value else .none

def limitSpec (q : Query) : LimitVal GoExpr :=
  match q.limit with
  | none => if isSingle q.rel.type then .int 1 else .none
  | some l => limitValSpec l

def offsetSpec (q : Query) : LimitVal GoExpr :=
  match q.offset with
  | none => .none
  | some l => limitValSpec l

/-- The statement for a query; `none` if the generator panics. -/
def sqlSpec (q : Query) (t : TargetInfo) : Option (SQL GoExpr) :=
  buildStmt q t (t.writes.map (writeSpec q))
    { joins := joinsSpec q t, wher := whereSpec q t, limit := limitSpec q, offset := offsetSpec q }

section
variable {α β : Type} (f : α → β)

def Clauses.map (c : Clauses α) : Clauses β :=
  { joins := c.joins.map (TableJoin.map f), wher := c.wher.map (BList.map f)
    limit := c.limit.map f, offset := c.offset.map f }

def SQL.map (s : SQL α) : SQL β :=
  { stmt := s.stmt.map f, tail := s.tail.map f, closeFilter := s.closeFilter }

end

end Verif.Generator
