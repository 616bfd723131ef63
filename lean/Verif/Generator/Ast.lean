import Verif.Postgres.Types

/-
The syntax trees built by the code generator: SQL statements and Go expressions.

/repo/internal/generator/generator.go builds values of the packages github.com/frk/ast/sqlang and
github.com/frk/ast/golang, which print them.  The printers are not part of /repo; the types below name
the nodes the generator uses.  Layout (ListStyle, Compact, OnePerLine, NL) is left out.

An SQL tree is parametric in what stands for a value given at run time: `Slot` (an ordinal parameter or
the list of a slice) in generated statements, a Go expression in the statements of the specification.
-/
namespace Verif.Generator
open Verif.Analysis Verif.Postgres

/-- The Go expressions passed to the database or scanned into. -/
inductive GoExpr where
  | ident (n : Bytes)
  | sel (x : GoExpr) (name : Bytes)
  | index (x i : GoExpr)
  | addr (x : GoExpr)
  /-- `pgsql.F(x)` -/
  | conv (fn : Bytes) (x : GoExpr)
deriving Repr, DecidableEq

/-- A value given at run time: SQL.OrdinalParameterSpec, or `gosql.InValueList(len_k, pos_k)`. -/
inductive Slot where
  | num (n : Int)
  | slice (k : Nat)
deriving Repr, DecidableEq

/-- SQL.ValueExpr. -/
inductive VExpr (α : Type) where
  | default
  | param (a : α)
  /-- SQL.ColumnReference -/
  | col (c : ColIdent)
  /-- SQL.ColumnIdent with the qualifier `x` -/
  | xcol (name : Bytes)
  | lit (s : Bytes)
  | cast (x : VExpr α) (type : Bytes)
  | nullif (x y : VExpr α)
  | coalesce (x y : VExpr α)
  /-- SQL.RoutineInvocation with one argument -/
  | call (fn : Bytes) (x : VExpr α)
  | quantified (q : Quant) (x : VExpr α)
  /-- nil -/
  | absent
deriving Repr, DecidableEq

/-- SQL.CMPOP, SQL.REGEXOP and the two-place predicates with their `Not`. -/
inductive BinOp where
  | eq | ne | ne2 | lt | gt | le | ge
  | matches | matchesCI | notMatches | notMatchesCI
  | like (not : Bool) | ilike (not : Bool) | similar (not : Bool) | distinct (not : Bool)
deriving Repr, DecidableEq

inductive Truth where
  | unknown | true | false
deriving Repr, DecidableEq

/-- SQL.BoolValueExprList: Initial, SQL.AND and SQL.OR. -/
inductive Link where
  | initial | and | or
deriving Repr, DecidableEq

mutual
/-- SQL.BoolValueExpr. -/
inductive BExpr (α : Type) where
  | binary (op : BinOp) (l r : VExpr α)
  | inList (not : Bool) (x : VExpr α) (list : α)
  | truth (not : Bool) (t : Truth) (x : VExpr α)
  | null (not : Bool) (x : VExpr α)
  | between (x lo hi : VExpr α)
  /-- a value expression that is a condition by itself -/
  | bare (x : VExpr α)
  /-- a parenthesized list -/
  | group (l : BList α)
/-- SQL.BoolValueExprList. -/
inductive BList (α : Type) where
  | nil
  | cons (link : Link) (x : BExpr α) (rest : BList α)
end

/-- SQL.TableJoin. -/
structure TableJoin (α : Type) where
  type : Option JoinType
  rel : RelIdent
  cond : BList α

/-- SQL.TableExpr; `values` is SQL.ValuesListClausePartial. -/
inductive TableExpr (α : Type) where
  | rel (r : RelIdent)
  | join (j : TableJoin α)
  | values

/-- SQL.LimitValue and SQL.OffsetValue. -/
inductive LimitVal (α : Type) where
  | none
  | int (n : Nat)
  | param (a : α)
deriving Repr, DecidableEq

/-- SQL.OrderBy. -/
structure OrderBy where
  column : ColIdent
  desc : Bool
  nullsFirst : Bool
deriving Repr, DecidableEq

/-- SQL.OnConflictClause; `update` is empty for DO NOTHING. -/
structure ConflictClause where
  target : Option ConflictTarget
  update : List Bytes
deriving Repr, DecidableEq

/-- The statements.  `returning` is empty if there is no RETURNING clause; `wher` is `none` if there is
no WHERE clause. -/
inductive Stmt (α : Type) where
  | insert (table : RelIdent) (cols : List Bytes) (overriding : Option Overriding)
      (values : Option (List (VExpr α))) (conflict : Option ConflictClause)
      (returning : List (VExpr α))
  | update (table : RelIdent) (cols : List Bytes) (values : List (VExpr α))
      (from_ : List (TableExpr α)) (wher : Option (BList α)) (returning : List (VExpr α))
  | select (cols : List (VExpr α)) (table : RelIdent) (joins : List (TableJoin α))
      (wher : Option (BList α)) (order : List OrderBy) (limit offset : LimitVal α)
  | count (table : RelIdent) (joins : List (TableJoin α)) (wher : Option (BList α))
      (order : List OrderBy) (offset : LimitVal α)
  | exists_ (not open_ : Bool) (table : RelIdent) (joins : List (TableJoin α))
      (wher : Option (BList α)) (order : List OrderBy) (limit offset : LimitVal α)
  | delete (table : RelIdent) (using_ : List (TableExpr α)) (wher : Option (BList α))
      (returning : List (VExpr α))

/-- What is appended to the query string at run time: SQL.InsertTail, or SQL.UpdateTail preceded, for a
slice, by `AS x (columns)`. -/
inductive Tail (α : Type) where
  | none
  | insert (conflict : Option ConflictClause) (returning : List (VExpr α))
  | update (alias : Option (List Bytes)) (wher : Option (BList α)) (returning : List (VExpr α))

/-! ### Replacing the run-time values -/

section map
variable {α β : Type} (f : α → β)

def VExpr.map : VExpr α → VExpr β
  | .default => .default
  | .param a => .param (f a)
  | .col c => .col c
  | .xcol n => .xcol n
  | .lit s => .lit s
  | .cast x t => .cast x.map t
  | .nullif x y => .nullif x.map y.map
  | .coalesce x y => .coalesce x.map y.map
  | .call fn x => .call fn x.map
  | .quantified q x => .quantified q x.map
  | .absent => .absent

mutual
def BExpr.map : BExpr α → BExpr β
  | .binary op l r => .binary op (l.map f) (r.map f)
  | .inList n x a => .inList n (x.map f) (f a)
  | .truth n t x => .truth n t (x.map f)
  | .null n x => .null n (x.map f)
  | .between x lo hi => .between (x.map f) (lo.map f) (hi.map f)
  | .bare x => .bare (x.map f)
  | .group l => .group l.map
def BList.map : BList α → BList β
  | .nil => .nil
  | .cons k x rest => .cons k x.map rest.map
end

def TableJoin.map (j : TableJoin α) : TableJoin β :=
  { type := j.type, rel := j.rel, cond := j.cond.map f }

def TableExpr.map : TableExpr α → TableExpr β
  | .rel r => .rel r
  | .join j => .join (j.map f)
  | .values => .values

def LimitVal.map : LimitVal α → LimitVal β
  | .none => .none
  | .int n => .int n
  | .param a => .param (f a)

def Stmt.map : Stmt α → Stmt β
  | .insert t cs o vs c r => .insert t cs o (vs.map (List.map (VExpr.map f))) c (r.map (VExpr.map f))
  | .update t cs vs fr w r =>
    .update t cs (vs.map (VExpr.map f)) (fr.map (TableExpr.map f)) (w.map (BList.map f))
      (r.map (VExpr.map f))
  | .select cs t js w o l k =>
    .select (cs.map (VExpr.map f)) t (js.map (TableJoin.map f)) (w.map (BList.map f)) o
      (l.map f) (k.map f)
  | .count t js w o k => .count t (js.map (TableJoin.map f)) (w.map (BList.map f)) o (k.map f)
  | .exists_ n op t js w o l k =>
    .exists_ n op t (js.map (TableJoin.map f)) (w.map (BList.map f)) o (l.map f) (k.map f)
  | .delete t us w r =>
    .delete t (us.map (TableExpr.map f)) (w.map (BList.map f)) (r.map (VExpr.map f))

def Tail.map : Tail α → Tail β
  | .none => .none
  | .insert c r => .insert c (r.map (VExpr.map f))
  | .update a w r => .update a (w.map (BList.map f)) (r.map (VExpr.map f))

end map

/-! ### The run-time values occurring in a tree, left to right -/

section slots
variable {α : Type}

def VExpr.slots : VExpr α → List α
  | .param a => [a]
  | .cast x _ | .call _ x | .quantified _ x => x.slots
  | .nullif x y | .coalesce x y => x.slots ++ y.slots
  | _ => []

mutual
def BExpr.slots : BExpr α → List α
  | .binary _ l r => l.slots ++ r.slots
  | .inList _ x a => x.slots ++ [a]
  | .truth _ _ x => x.slots
  | .null _ x => x.slots
  | .between x lo hi => x.slots ++ lo.slots ++ hi.slots
  | .bare x => x.slots
  | .group l => l.slots
def BList.slots : BList α → List α
  | .nil => []
  | .cons _ x rest => x.slots ++ rest.slots
end

def whereSlots (w : Option (BList α)) : List α := (w.map BList.slots).getD []

def TableExpr.slots : TableExpr α → List α
  | .join j => j.cond.slots
  | _ => []

def LimitVal.slots : LimitVal α → List α
  | .param a => [a]
  | _ => []

def Stmt.slots : Stmt α → List α
  | .insert _ _ _ vs _ r => (vs.getD []).flatMap VExpr.slots ++ r.flatMap VExpr.slots
  | .update _ _ vs fr w r =>
    vs.flatMap VExpr.slots ++ fr.flatMap TableExpr.slots ++ whereSlots w ++ r.flatMap VExpr.slots
  | .select cs _ js w _ l k =>
    cs.flatMap VExpr.slots ++ js.flatMap (fun j => j.cond.slots) ++ whereSlots w ++ l.slots ++ k.slots
  | .count _ js w _ k => js.flatMap (fun j => j.cond.slots) ++ whereSlots w ++ k.slots
  | .exists_ _ _ _ js w _ l k =>
    js.flatMap (fun j => j.cond.slots) ++ whereSlots w ++ l.slots ++ k.slots
  | .delete _ us w r => us.flatMap TableExpr.slots ++ whereSlots w ++ r.flatMap VExpr.slots

def Tail.slots : Tail α → List α
  | .none => []
  | .insert _ r => r.flatMap VExpr.slots
  | .update _ w r => whereSlots w ++ r.flatMap VExpr.slots

end slots

end Verif.Generator
