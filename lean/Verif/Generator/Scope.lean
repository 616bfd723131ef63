import Verif.Generator.Gen
import Verif.Postgres.Check

/-
Specification for property C105: what the names in a statement refer to.

This follows the documentation of PostgreSQL (SELECT, UPDATE, DELETE and INSERT: the FROM list, joins, RETURNING)
and its parser (parse_relation.c: refnameNamespaceItem, colNameToVar, scanRTEForColumn).  Every item of a FROM list
is known by its alias or, without one, by the name of its relation.  The qualifier of a column has to be the name of
exactly one item in scope, and the relation of this item has to have the column; a column without qualifier has to be
a column of exactly one item in scope.  A name without quotes is folded to lower case.  The condition of a join sees
the items up to the one that it joins; the relation of an UPDATE or DELETE is not an item of the FROM or USING list,
so the conditions of joins in there do not see it.

Left out: system columns, the columns of whole rows, and that ORDER BY prefers the names of output columns.
-/
namespace Verif.Generator
open Verif.Analysis Verif.Postgres

/-! ### The columns that occur in a tree -/

section cols
variable {α : Type}

def VExpr.cols : VExpr α → List ColIdent
  | .col c => [c]
  | .cast x _ | .call _ x | .quantified _ x => x.cols
  | .nullif x y | .coalesce x y => x.cols ++ y.cols
  | _ => []

mutual
def BExpr.cols : BExpr α → List ColIdent
  | .binary _ l r => l.cols ++ r.cols
  | .inList _ x _ => x.cols
  | .truth _ _ x => x.cols
  | .null _ x => x.cols
  | .between x lo hi => x.cols ++ lo.cols ++ hi.cols
  | .bare x => x.cols
  | .group l => l.cols
def BList.cols : BList α → List ColIdent
  | .nil => []
  | .cons _ x rest => x.cols ++ rest.cols
end

def whereCols (w : Option (BList α)) : List ColIdent := (w.map BList.cols).getD []

/-! ### The columns of a statement, each with the relations that are in scope where it stands -/

/-- A column and the items that it may refer to. -/
structure ColRef where
  scope : List RelIdent
  col : ColIdent

/-- The columns of the conditions of joins, after the items `seen`. -/
def joinRefs (seen : List RelIdent) : List (TableJoin α) → List ColRef
  | [] => []
  | j :: js => j.cond.cols.map (ColRef.mk (seen ++ [j.rel])) ++ joinRefs (seen ++ [j.rel]) js

/-- The relations of a FROM or USING list. -/
def TableExpr.rels : TableExpr α → List RelIdent
  | .rel r => [r]
  | .join j => [j.rel]
  | .values => []

def tableRefs (seen : List RelIdent) : List (TableExpr α) → List ColRef
  | [] => []
  | .join j :: ts => j.cond.cols.map (ColRef.mk (seen ++ [j.rel])) ++ tableRefs (seen ++ [j.rel]) ts
  | .rel r :: ts => tableRefs (seen ++ [r]) ts
  | .values :: ts => tableRefs seen ts

/-- The relations that the clauses after FROM see. -/
def Stmt.scope : Stmt α → List RelIdent
  | .insert t .. => [t]
  | .update t _ _ fr _ _ => t :: fr.flatMap TableExpr.rels
  | .select _ t js .. => t :: js.map (·.rel)
  | .count t js .. => t :: js.map (·.rel)
  | .exists_ _ _ t js .. => t :: js.map (·.rel)
  | .delete t us .. => t :: us.flatMap TableExpr.rels

/-- The columns outside of the conditions of joins. -/
def Stmt.plainCols : Stmt α → List ColIdent
  | .insert _ _ _ _ _ r => r.flatMap VExpr.cols
  | .update _ _ vs _ w r => vs.flatMap VExpr.cols ++ whereCols w ++ r.flatMap VExpr.cols
  | .select cs _ _ w o _ _ => cs.flatMap VExpr.cols ++ whereCols w ++ o.map (·.column)
  | .count _ _ w o _ => whereCols w ++ o.map (·.column)
  | .exists_ _ _ _ _ w o _ _ => whereCols w ++ o.map (·.column)
  | .delete _ _ w r => whereCols w ++ r.flatMap VExpr.cols

/-- The columns in the conditions of joins. -/
def Stmt.onRefs : Stmt α → List ColRef
  | .insert .. => []
  | .update _ _ _ fr _ _ => tableRefs [] fr
  | .select _ t js .. => joinRefs [t] js
  | .count t js .. => joinRefs [t] js
  | .exists_ _ _ t js .. => joinRefs [t] js
  | .delete _ us .. => tableRefs [] us

def Tail.cols : Tail α → List ColIdent
  | .none => []
  | .insert _ r => r.flatMap VExpr.cols
  | .update _ w r => whereCols w ++ r.flatMap VExpr.cols

/-- All columns outside of the conditions of joins, with what is appended at run time. -/
def SQL.plainRefs (s : SQL α) : List ColRef := (s.stmt.plainCols ++ s.tail.cols).map (ColRef.mk s.stmt.scope)

def SQL.onRefs (s : SQL α) : List ColRef := s.stmt.onRefs

/-- All columns of a statement. -/
def SQL.refs (s : SQL α) : List ColRef := s.plainRefs ++ s.onRefs

end cols

/-! ### What they refer to -/

/-- The columns that a relation has in the database. -/
def dbCols (cat : Catalog) (r : RelIdent) : List Bytes :=
  ((List.lookup (qualifiedName r) cat.rels).map fun x => x.columns.map (·.name)).getD []

/-- The name by which an item is known: an alias stands without quotes, the name of a relation with quotes. -/
def exposed (r : RelIdent) : Bytes := if r.alias.length > 0 then lower r.alias else r.name

/-- The items that a column may refer to. -/
def candidates (cat : Catalog) (x : ColRef) : List RelIdent :=
  if x.col.qualifier.length > 0 then x.scope.filter fun r => exposed r = lower x.col.qualifier
  else x.scope.filter fun r => (dbCols cat r).contains x.col.name

/-- The item that a column refers to; `none` if the database refuses the statement. -/
def refersTo (cat : Catalog) (x : ColRef) : Option RelIdent :=
  match candidates cat x with
  | [r] => if (dbCols cat r).contains x.col.name then some r else none
  | _ => none

/-! ### Columns that are written -/

section written
variable {α : Type}

def ConflictClause.cols (c : Option ConflictClause) : List Bytes := (c.map (·.update)).getD []

/-- The columns that are assigned: those of INSERT, of SET and of DO UPDATE SET. -/
def SQL.assigned (s : SQL α) : List Bytes :=
  (match s.stmt with
    | .insert _ cs _ _ c _ => cs ++ ConflictClause.cols c
    | .update _ cs .. => cs
    | _ => []) ++
  (match s.tail with
    | .insert c _ => ConflictClause.cols c
    | _ => [])

def VExpr.xcols : VExpr α → List Bytes
  | .xcol n => [n]
  | .cast x _ | .call _ x | .quantified _ x => x.xcols
  | .nullif x y | .coalesce x y => x.xcols ++ y.xcols
  | _ => []

mutual
def BExpr.xcols : BExpr α → List Bytes
  | .binary _ l r => l.xcols ++ r.xcols
  | .inList _ x _ => x.xcols
  | .truth _ _ x => x.xcols
  | .null _ x => x.xcols
  | .between x lo hi => x.xcols ++ lo.xcols ++ hi.xcols
  | .bare x => x.xcols
  | .group l => l.xcols
def BList.xcols : BList α → List Bytes
  | .nil => []
  | .cons _ x rest => x.xcols ++ rest.xcols
end

end written

end Verif.Generator
