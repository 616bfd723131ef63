import Verif.Generator.Db

/- C81: what the generated statements do to the tables.  What is asked for, and that the generated
statements have the clauses asked for. -/
namespace Verif.Generator
open Verif.Analysis Verif.Postgres

/-! ### The statement with its arguments -/

theorem TableJoin.map_map {α β γ : Type} (f : α → β) (g : β → γ) (x : TableJoin α) :
    (x.map f).map g = x.map (g ∘ f) := by
  simp [TableJoin.map, BList.map_map]

theorem TableExpr.map_map {α β γ : Type} (f : α → β) (g : β → γ) (x : TableExpr α) :
    (x.map f).map g = x.map (g ∘ f) := by
  cases x <;> simp [TableExpr.map, TableJoin.map_map]

theorem LimitVal.map_map {α β γ : Type} (f : α → β) (g : β → γ) (x : LimitVal α) :
    (x.map f).map g = x.map (g ∘ f) := by
  cases x <;> simp [LimitVal.map]

theorem vmap_comp {α β γ : Type} (f : α → β) (g : β → γ) :
    VExpr.map g ∘ VExpr.map f = VExpr.map (g ∘ f) := funext fun x => VExpr.map_map f g x
theorem bmap_comp {α β γ : Type} (f : α → β) (g : β → γ) :
    BList.map g ∘ BList.map f = BList.map (g ∘ f) := funext fun x => BList.map_map f g x
theorem tmap_comp {α β γ : Type} (f : α → β) (g : β → γ) :
    TableExpr.map g ∘ TableExpr.map f = TableExpr.map (g ∘ f) := funext fun x => TableExpr.map_map f g x
theorem jmap_comp {α β γ : Type} (f : α → β) (g : β → γ) :
    TableJoin.map g ∘ TableJoin.map f = TableJoin.map (g ∘ f) := funext fun x => TableJoin.map_map f g x

theorem Stmt.map_map {α β γ : Type} (f : α → β) (g : β → γ) (s : Stmt α) :
    (s.map f).map g = s.map (g ∘ f) := by
  cases s <;> simp [Stmt.map, LimitVal.map_map, vmap_comp, bmap_comp, tmap_comp, jmap_comp]
  rename_i vs _ _
  cases vs <;> simp [vmap_comp]

theorem Tail.map_map {α β γ : Type} (f : α → β) (g : β → γ) (s : Tail α) :
    (s.map f).map g = s.map (g ∘ f) := by
  cases s <;> simp [Tail.map, vmap_comp, bmap_comp]

theorem vmap_id {α : Type} : (VExpr.map (id : α → α)) = id := funext VExpr.map_id
theorem bmap_id {α : Type} : (BList.map (id : α → α)) = id := funext BList.map_id
theorem jmap_id {α : Type} : (TableJoin.map (id : α → α)) = id :=
  funext fun x => by simp [TableJoin.map, BList.map_id]
theorem tmap_id {α : Type} : (TableExpr.map (id : α → α)) = id :=
  funext fun x => by cases x <;> simp [TableExpr.map, jmap_id]
theorem LimitVal.map_id {α : Type} (x : LimitVal α) : x.map id = x := by cases x <;> rfl

theorem Stmt.map_id {α : Type} (s : Stmt α) : s.map id = s := by
  cases s <;> simp [Stmt.map, LimitVal.map_id, vmap_id, bmap_id, tmap_id, jmap_id]

theorem Tail.map_id {α : Type} (s : Tail α) : s.map id = s := by
  cases s <;> simp [Tail.map, vmap_id, bmap_id]

/-- The statement of the generated code, its parameters replaced by the arguments they stand for. -/
def Code.meant (c : Code) : SQL GoExpr := c.sql.map fun s => (resolve c.args c.g.slices s).getD noSel

theorem Says.meant {c : Code} {s : SQL GoExpr} (h : Says c s) : c.meant = s := by
  unfold Says at h
  have h2 := congrArg (SQL.map fun o => Option.getD o noSel) h
  have e : ((fun o => Option.getD o noSel) ∘ some : GoExpr → GoExpr) = id := rfl
  have e2 : ((fun o => Option.getD o noSel) ∘ resolve c.args c.g.slices) =
      fun s => (resolve c.args c.g.slices s).getD noSel := rfl
  simp only [SQL.map, Stmt.map_map, Tail.map_map, e, e2, Stmt.map_id, Tail.map_id] at h2
  exact h2

/-! ### What is asked for -/

instance (c : Column) : Decidable (nullableColumn c) := by unfold nullableColumn; infer_instance
instance (r : FieldRead) : Decidable (TakesNull r) := by unfold TakesNull; infer_instance
instance (w : FieldWrite) : Decidable (SaysNull w) := by unfold SaysNull; infer_instance
instance (r : FieldRead) : Decidable (Replaces r) := by unfold Replaces; infer_instance

section
variable {V : Type} (S : Server V)

/-- The tables of the join struct, each with the condition that its tag asks for. -/
def Server.askedJoins (field : Fields V) (q : Query) : List (JoinOf V) :=
  match q.join with
  | none => []
  | some j => j.directives.map fun d =>
    { type := d.joinType, rel := d.relIdent
      on := fun s => d.items.length = 0 ||
        decide (askedAll (S.cond field s) [] (d.items.map JItem.asItem) = some true) }

/-- The where struct asks for the row; without where struct, or if it is empty, any row is asked for. -/
def Server.askedRow (field : Fields V) (q : Query) (s : Joined V) : Bool :=
  match q.wher with
  | none => true
  | some w => w.items.length = 0 ||
      decide (askedAll (S.cond field s) [b!"q", w.fieldName] w.items = some true)

/-- The rows asked for by a query that reads. -/
def Server.askedRows (field : Fields V) (T : Tables V) (q : Query) : List (Joined V) :=
  (sources T q.rel.id (S.askedJoins field q)).filter (S.askedRow field q)

/-- A limit or offset: the value of the field, or the number of the directive unless it is zero. -/
def Server.askedNumber (field : Fields V) (l : LimitField) : Option Nat :=
  if l.name = [] then (if l.value = 0 then none else some l.value)
  else (field [b!"q", l.name]).map S.nat

/-- At most as many rows; one if there is place for one only. -/
def Server.askedLimit (field : Fields V) (q : Query) : Option Nat :=
  match q.limit with
  | some l => S.askedNumber field l
  | none => if isSingle q.rel.type then some 1 else none

def Server.askedOffset (field : Fields V) (q : Query) : Option Nat :=
  q.offset.bind (S.askedNumber field)

/-- The order asked for: NULL comes last unless the tag says otherwise, also in descending order. -/
def Server.askedOrder (q : Query) : Joined V → Joined V → Bool :=
  S.notAfter ((q.orderBy.getD []).map fun i => ⟨i.colIdent, i.desc, decide (i.nulls = some .first)⟩)

variable [DecidableEq V]

/-- What is read for a field: the value of its column, as text for a uuid whose NULL is replaced; NULL is
replaced by the literal that stands for it. -/
def Server.readField (j : Joined V) (r : FieldRead) : Option V :=
  let viaText := r.column.type.oid = Oid.uuid ∧ r.field.coalesceValue = []
  match S.col j r.colIdent with
  | some v => some (if viaText ∧ Replaces r then S.cast b!"text" v else v)
  | none =>
    if Replaces r then
      (standIn r).bind fun l => if viaText then S.lit l else (S.lit l).map (S.cast r.column.type.nameFmt)
    else none

/-- What is stored for the value of a field: NULL for the literal that stands for it, if the column may be
NULL and the field cannot say so. -/
def Server.stored (w : FieldWrite) (v : Option V) : Option V :=
  match (if nullableColumn w.column ∧ ¬ SaysNull w then nullLit w.column else none) with
  | some z => if v = S.lit z then none else v.map (S.cast w.column.type.nameFmt)
  | none => v

/-- The field or the Default directive asks for the default of the column. -/
def asksDefault (q : Query) (f : FieldInfo) : Bool :=
  f.useDefault || (match q.default with | none => false | some l => l.contains f.colIdent)

/-- What the columns of the written fields are set to, given the values of the fields. -/
def Server.written (value : FieldWrite → Option V) (q : Query) (t : TargetInfo) (n : Bytes) : Option (Option V) :=
  (t.writes.find? fun w => w.column.name = n).map fun w =>
    if asksDefault q w.field then S.default (tableOf q.rel.id) n else S.stored w (value w)

/-- The row for a record. -/
def Server.recordRow (value : FieldWrite → Option V) (q : Query) (t : TargetInfo) : Row V :=
  fun n => (S.written value q t n).getD (S.default (tableOf q.rel.id) n)

/-- A row changed to a record: the other columns keep their values. -/
def Server.recordOver (value : FieldWrite → Option V) (q : Query) (t : TargetInfo) (r : Row V) : Row V :=
  fun n => (S.written value q t n).getD (r n)

end

/-- None of the exceptions of C64 applies. -/
structure AsTold (q : Query) : Prop where
  wher : ∀ w, q.wher = some w → w.items ≠ [] → WellFormed w.items ∧ renderedAll w.items = true
  join : ∀ j, q.join = some j → ∀ d ∈ j.directives, renderedAll (d.items.map JItem.asItem) = true

/-! ### The clauses -/

section
variable {V : Type} (S : Server V)

theorem whereSpec_holds {cat : Catalog} {q : Query} {t : TargetInfo} (h : Built cat q t) (hr : AsTold q)
    (hu : isUpdateWithPKeys q = false) (field : Fields V) :
    S.holds field (whereSpec q t) = S.askedRow field q := by
  funext s
  unfold Server.askedRow whereSpec
  rw [hu]
  cases hw : q.wher with
  | none => rfl
  | some w =>
    obtain ⟨ck, _, _, _, _, _, _, _, _, _, _, hck⟩ := checkQuery_ok h.checked
    rw [hw] at hck
    simp only [Option.map_some, Option.getD_some] at hck
    simp only [Bool.false_eq_true, if_false]
    cases hi : w.items with
    | nil =>
      rw [hi] at hck
      simp only [checkWhereItems, Res.ok.injEq] at hck
      rw [← hck]
      rfl
    | cons i is =>
      have hne : w.items ≠ [] := by simp [hi]
      have h2 : t.wher.length > 0 := by
        rw [hi] at hck
        simp only [checkWhereItems, Res.bind_eq_ok, Res.map_eq_ok] at hck
        obtain ⟨_, _, _, _, hx⟩ := hck
        rw [← hx]
        exact Nat.succ_pos _
      obtain ⟨h3, h4⟩ := hr.wher w hw hne
      rw [if_pos h2, Server.holds,
        eval_items (S.cond field s) ck (.sel recv w.fieldName) w.items t.wher hne h3 (h.whereSound hw) h4 hck]
      simp [goPath, recv, hi]

theorem joinsSpec_asked {cat : Catalog} {q : Query} {t : TargetInfo} (h : Built cat q t) (hr : AsTold q)
    (field : Fields V) : (joinsSpec q t).map (S.joinOf field) = S.askedJoins field q := by
  unfold joinsSpec Server.askedJoins
  cases hj : q.join with
  | none => rfl
  | some j =>
    obtain ⟨env, cache, n, fs, st, e, hst⟩ := h.analyzed
    have f := analyzeQuery_fits e
    rw [hst] at f
    obtain ⟨c0, c1, hck⟩ := checkQuery_joins h.checked
    rw [hj] at hck
    simp only [checkJoin, Res.bind_eq_ok] at hck
    obtain ⟨c2, _, hck⟩ := hck
    have hlen := checkJoinDirs_length _ _ _ hck
    simp only at hlen
    apply List.ext_getElem?
    intro i
    simp only [List.getElem?_map, List.getElem?_zipWith]
    cases hd : j.directives[i]? with
    | none => simp
    | some d =>
      obtain ⟨c3, rel, cs, hcs, hm⟩ := checkJoinDirs_each _ _ _ hck i d hd
      simp only at hcs
      have hmem : d ∈ j.directives := List.mem_of_getElem? hd
      simp only [hcs, Option.map_some, Option.some.injEq]
      unfold Server.joinOf joinSpec
      simp only [JoinOf.mk.injEq, true_and]
      funext s
      cases hi : d.items with
      | nil =>
        rw [hi] at hm
        simp only [mapP, Res.ok.injEq] at hm
        simp [← hm, condListSpec]
      | cons x xs =>
        have hne : d.items ≠ [] := by simp [hi]
        have he := eval_joins (S.cond field s) d.items cs (f.joinLinked j hj d hmem) hne (by
          intro cc hcc
          refine ((f.join j hj).2 d hmem cc ?_).1
          exact List.mem_filterMap.2 ⟨_, hcc, rfl⟩) (hr.join j hj d hmem) hm
        rw [← hi]
        have h0 : d.items.length ≠ 0 := by simp [hi]
        simp only [h0, decide_false, Bool.false_or]
        split
        · rename_i hn
          rw [hn] at he
          simp [evalList] at he
        · rw [Server.holds, he]
          simp

theorem limitSpec_rows (field : Fields V) (q : Query) : S.rows field (limitSpec q) = S.askedLimit field q := by
  unfold limitSpec Server.askedLimit
  cases q.limit with
  | none => by_cases h : isSingle q.rel.type = true <;> simp [h, Server.rows]
  | some l =>
    simp only [limitValSpec, Server.askedNumber]
    by_cases hn : l.name = []
    · by_cases hv : l.value = 0
      · simp [hn, hv, Server.rows]
      · simp [hn, hv, Server.rows, Nat.pos_of_ne_zero hv]
    · simp [hn, List.length_pos_iff, Server.rows, goPath, recv]

theorem offsetSpec_rows (field : Fields V) (q : Query) : S.rows field (offsetSpec q) = S.askedOffset field q := by
  unfold offsetSpec Server.askedOffset
  cases q.offset with
  | none => simp [Server.rows]
  | some l =>
    simp only [limitValSpec, Server.askedNumber, Option.bind_some]
    by_cases hn : l.name = []
    · by_cases hv : l.value = 0
      · simp [hn, hv, Server.rows]
      · simp [hn, hv, Server.rows, Nat.pos_of_ne_zero hv]
    · simp [hn, List.length_pos_iff, Server.rows, goPath, recv]

theorem orderSpec_asked (q : Query) : S.notAfter (orderSpec q) = S.askedOrder q := by
  unfold orderSpec Server.askedOrder
  cases q.orderBy <;> rfl

variable [DecidableEq V]

theorem value_readVal (field : Fields V) (j : Joined V) (r : FieldRead) :
    S.value field j (readVal r) = S.readField j r := by
  have e : S.value field j (readVal r) =
      readAs S.toSqlWorld (fun a : GoExpr => field (goPath a)) (S.col j) r := rfl
  rw [e]
  unfold Server.readField
  cases hv : S.col j r.colIdent with
  | some v =>
    by_cases hp : Replaces r
    · unfold readAs readVal
      rw [if_pos ((needsCoalesce_iff r).2 hp), addCoalesce]
      by_cases hc : r.field.coalesceValue = []
      · rw [if_neg (by simp [hc])]
        by_cases hu : r.column.type.oid = Oid.uuid
        · simp [hu, SqlWorld.val, hv, hc, hp]
        · rw [if_neg hu]
          simp only [hu, false_and, if_false]
          split <;> simp [SqlWorld.val, hv]
      · rw [if_pos (List.length_pos_iff.2 hc)]
        simp [SqlWorld.val, hv, hc]
    · rw [readAs_bare _ _ _ r hp, hv]
      simp [hp]
  | none =>
    by_cases hp : Replaces r
    · rw [readAs_none _ _ _ r hv hp]
      simp [hp]
    · rw [readAs_bare _ _ _ r hp, hv]
      simp [hp]

theorem asksDefault_eq (q : Query) (f : FieldInfo) : canUseDefault q f = asksDefault q f := by
  unfold canUseDefault asksDefault
  cases q.default <;> simp

/-- The cell of a written field, whatever the rows. -/
theorem cell_writeSpec (q : Query) (hs : q.rel.type.isSlice = false) (field : Fields V) (j : Joined V) (w : FieldWrite) :
    S.cell field j (writeSpec q w) =
      if asksDefault q w.field then none else some (S.stored w (field (recordPath q w.field))) := by
  unfold writeSpec
  rw [asksDefault_eq]
  by_cases hd : asksDefault q w.field = true
  · rw [if_pos hd, if_pos hd]; rfl
  · rw [if_neg hd, if_neg hd]
    have hp : goPath (writeArg q w) = recordPath q w.field := by
      rw [writeArg, goPath_addConv, goPath_fieldSel q hs]
    unfold Server.stored
    by_cases hn : w.needsNullif = true
    · rw [if_pos hn, if_pos ((needsNullif_iff w).1 hn), addNullif, nullLit]
      by_cases hu : w.column.type.oid = Oid.uuid
      · simp only [hu, if_true, Server.cell, Server.value, SqlWorld.val, textUnlessParam, emptyLit, hp]
        split <;> rfl
      · simp only [hu, if_false]
        cases hz : w.column.type.zeroValue with
        | none => simp [Server.cell, Server.value, SqlWorld.val, hp]
        | some z =>
          simp only [Server.cell, Server.value, SqlWorld.val, hp]
          split <;> rfl
    · rw [if_neg hn, if_neg (fun h => hn ((needsNullif_iff w).2 h))]
      simp [Server.cell, Server.value, SqlWorld.val, hp]

omit [DecidableEq V] in
theorem setTo_writes (tb : Bytes × Bytes) (ws : List FieldWrite) (g : FieldWrite → Option (Option V)) (n : Bytes) :
    S.setTo tb (ws.map (·.column.name)) (ws.map g) n =
      (ws.find? fun w => w.column.name = n).map fun w => (g w).getD (S.default tb n) := by
  induction ws with
  | nil => rfl
  | cons w ws ih =>
    simp only [List.map_cons, Server.setTo, List.find?_cons]
    by_cases h : w.column.name = n
    · simp [h]
    · simp [h, ih]

theorem setTo_written (q : Query) (t : TargetInfo) (hs : q.rel.type.isSlice = false) (field : Fields V)
    (j : Joined V) (n : Bytes) :
    S.setTo (tableOf q.rel.id) (t.writes.map (·.column.name)) ((t.writes.map (writeSpec q)).map (S.cell field j)) n =
      S.written (fun w => field (recordPath q w.field)) q t n := by
  rw [List.map_map, setTo_writes]
  unfold Server.written
  cases (t.writes.find? fun w => w.column.name = n) with
  | none => rfl
  | some w =>
    simp only [Option.map_some, Function.comp, cell_writeSpec S q hs]
    split <;> rfl

end
end Verif.Generator
