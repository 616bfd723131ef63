import Verif.Generator.Spec

/- Replacing run-time values commutes with building trees. -/
namespace Verif.Generator
open Verif.Analysis Verif.Postgres

section
variable {α β γ : Type} (f : α → β)

theorem map_addCall (fn : Bytes) (x : VExpr α) : (addCall fn x).map f = addCall fn (x.map f) := by
  unfold addCall; split <;> rfl

theorem map_addQuant (q : Option Quant) (t : Bytes) (x : VExpr α) :
    (addQuant q t x).map f = addQuant q t (x.map f) := by
  cases q with
  | none => rfl
  | some q => simp only [addQuant]; split <;> rfl

theorem map_rhsExpr (r : Rhs) : (rhsExpr (α := α) r).map f = rhsExpr r := by
  cases r <;> simp only [rhsExpr] <;> (try split) <;> rfl

theorem map_addNullif (a : α) (c : Column) :
    (addNullif (.param a) c).map f = addNullif (.param (f a)) c := by
  unfold addNullif
  split
  · rfl
  · split <;> rfl

theorem map_addCoalesce (x : VExpr α) (v : Bytes) (c : Column) :
    (addCoalesce x v c).map f = addCoalesce (x.map f) v c := by
  unfold addCoalesce
  split
  · rfl
  · split
    · rfl
    · split <;> rfl

theorem map_readVal (r : FieldRead) : (readVal (α := α) r).map f = readVal r := by
  unfold readVal
  split
  · rw [map_addCoalesce]; rfl
  · rfl

theorem map_formExpr (l r : VExpr α) (a : α) (p : PForm) :
    (formExpr l r a p).map f = formExpr (l.map f) (r.map f) (f a) p := by
  cases p <;> simp only [formExpr, BExpr.map]

theorem map_addItem (first : Bool) (b : Option Bool) (x : BExpr α) (l : BList α) :
    (addItem first b x l).map f = addItem first b (x.map f) (l.map f) := by
  unfold addItem
  split
  · simp only [BList.map]
  · split <;> simp only [BList.map]

theorem map_outputVals (t : TargetInfo) :
    (outputVals (α := α) t).map (VExpr.map f) = outputVals t := by
  unfold outputVals
  rw [List.map_map]
  exact List.map_congr_left fun r _ => map_readVal f r

theorem map_updateCols (q : Query) (t : TargetInfo) :
    (updateCols (α := α) q t).map (VExpr.map f) = updateCols q t := by
  unfold updateCols
  rw [List.map_map]
  rfl

theorem map_tableExprs (q : Query) (js : List (TableJoin α)) :
    (tableExprs q js).map (List.map (TableExpr.map f)) = tableExprs q (js.map (TableJoin.map f)) := by
  unfold tableExprs
  split
  · rfl
  · rename_i j _
    cases j.relation with
    | none => rfl
    | some r =>
      simp only [Option.map_some, List.map_cons, List.map_map]
      rfl

theorem length_outputVals (t : TargetInfo) :
    (outputVals (α := α) t).length = t.reads.length := by simp [outputVals]

theorem map_buildInsert (q : Query) (t : TargetInfo) (vs : List (VExpr α)) :
    (buildInsert q t vs).map f = buildInsert q t (vs.map (VExpr.map f)) := by
  unfold buildInsert
  simp only [length_outputVals]
  split
  · split
    · simp only [SQL.map, Stmt.map, Tail.map, map_outputVals, Option.map_none, List.map_nil]
    · simp only [SQL.map, Stmt.map, Tail.map, map_outputVals, Option.map_none]
  · simp only [SQL.map, Stmt.map, Tail.map, map_outputVals, Option.map_some]

theorem map_buildUpdate (q : Query) (t : TargetInfo) (vs : List (VExpr α)) (c : Clauses α) :
    (buildUpdate q t vs c).map (SQL.map f) = buildUpdate q t (vs.map (VExpr.map f)) (c.map f) := by
  unfold buildUpdate
  simp only [length_outputVals, Option.map_map]
  rw [show (c.map f).joins = c.joins.map (TableJoin.map f) from rfl, ← map_tableExprs, Option.map_map]
  congr 1
  funext from_
  simp only [Function.comp_def]
  have hv : (if q.isSliceUpdate = true then updateCols q t else vs.map (VExpr.map f)) =
      (if q.isSliceUpdate = true then updateCols q t else vs).map (VExpr.map f) := by
    split
    · rw [map_updateCols]
    · rfl
  rw [hv]
  split
  · simp only [SQL.map, Stmt.map, Tail.map, List.map_append, List.map_cons, List.map_nil, TableExpr.map,
      Option.map_none, Clauses.map]
  · split
    · simp only [SQL.map, Stmt.map, Tail.map, map_outputVals, List.map_nil, Option.map_none]
    · simp only [SQL.map, Stmt.map, Tail.map, map_outputVals, Clauses.map]

theorem map_buildStmt (q : Query) (t : TargetInfo) (vs : List (VExpr α)) (c : Clauses α) :
    (buildStmt q t vs c).map (SQL.map f) = buildStmt q t (vs.map (VExpr.map f)) (c.map f) := by
  unfold buildStmt
  cases q.kind with
  | insert => simp only [Option.map_some, map_buildInsert]
  | update => exact map_buildUpdate f q t vs c
  | delete =>
    simp only [buildDelete, Option.map_map]
    rw [show (c.map f).joins = c.joins.map (TableJoin.map f) from rfl, ← map_tableExprs, Option.map_map]
    congr 1
    funext us
    simp only [Function.comp_def, SQL.map, Stmt.map, Tail.map, map_outputVals, Clauses.map]
  | select => simp only [Option.map_some, SQL.map, Stmt.map, Tail.map, map_outputVals, Clauses.map]
  | selectCount =>
    simp only [Option.map_some, buildCount]
    split <;> simp only [SQL.map, Stmt.map, Tail.map, Clauses.map, Option.map_none, LimitVal.map]
  | selectExists =>
    simp only [Option.map_some, buildExists]
    split <;> simp only [SQL.map, Stmt.map, Tail.map, Clauses.map, Option.map_none, LimitVal.map]
  | selectNotExists =>
    simp only [Option.map_some, buildExists]
    split <;> simp only [SQL.map, Stmt.map, Tail.map, Clauses.map, Option.map_none, LimitVal.map]

end

/-! ### Slots -/

theorem resolve_append {args slices : List GoExpr} {s : Slot} {e : GoExpr} (a b : List GoExpr)
    (h : resolve args slices s = some e) : resolve (args ++ a) (slices ++ b) s = some e := by
  cases s with
  | num n =>
    simp only [resolve] at h ⊢
    split at h
    · rename_i hn
      rw [if_pos hn]
      rw [List.getElem?_eq_some_iff] at h
      obtain ⟨hl, h⟩ := h
      rw [List.getElem?_append_left hl, List.getElem?_eq_getElem hl, h]
    · cases h
  | slice k =>
    simp only [resolve] at h ⊢
    split at h
    · rename_i hn
      rw [if_pos hn]
      rw [List.getElem?_eq_some_iff] at h
      obtain ⟨hl, h⟩ := h
      rw [List.getElem?_append_left hl, List.getElem?_eq_getElem hl, h]
    · cases h

theorem resolve_num (pre post slices : List GoExpr) (e : GoExpr) (n : Int) (h : n = pre.length) :
    resolve (pre ++ e :: post) slices (.num (n + 1)) = some e := by
  subst h
  simp only [resolve]
  rw [if_pos (by omega)]
  simp

theorem resolve_slice (args pre post : List GoExpr) (e : GoExpr) :
    resolve args (pre ++ e :: post) (.slice (pre.length + 1)) = some e := by
  simp [resolve]

end Verif.Generator
