import Verif.Generator.PropsTreeDb

/- Property C95: what the statement that is sent does to the tables. Statements. -/
namespace Verif.Generator.Gram
open Verif.Analysis Verif.Postgres Verif.Generator.Lex Print

/-! ### The parts of a statement -/

section
variable {α : Type}

def tableRel : TableExpr α → List RelIdent
  | .rel r => [r]
  | .join j => [j.rel]
  | .values => []

/-- The tables. -/
def stmtRels : Stmt α → List RelIdent
  | .insert t _ _ _ _ _ => [t]
  | .update t _ _ fr _ _ => t :: fr.flatMap tableRel
  | .select _ t js _ _ _ _ | .count t js _ _ _ | .exists_ _ _ t js _ _ _ _ => t :: js.map (·.rel)
  | .delete t us _ _ => t :: us.flatMap tableRel

/-- The values that are returned. -/
def stmtOuts : Stmt α → List (VExpr α)
  | .insert _ _ _ _ _ r | .update _ _ _ _ _ r | .delete _ _ _ r => r
  | .select cs _ _ _ _ _ _ => cs
  | .count .. | .exists_ .. => []

/-- The values that are written. -/
def stmtNews : Stmt α → List (VExpr α)
  | .insert _ _ _ vs _ _ => vs.getD []
  | .update _ _ vs _ _ _ => vs
  | _ => []

def stmtOrder : Stmt α → List OrderBy
  | .select _ _ _ _ o _ _ | .count _ _ _ o _ | .exists_ _ _ _ _ _ o _ _ => o
  | _ => []

/-- The parts of the conditions. -/
def stmtConds (s : Stmt α) : List Part :=
  (match s.wher with
   | some l => condsParts l
   | none => []) ++ s.joins.flatMap fun j => condsParts j.cond

/-- All parts. -/
def stmtParts (s : Stmt α) : List Part :=
  (stmtOuts s ++ stmtNews s).flatMap valParts ++ stmtConds s ++ (stmtOrder s).map fun o => .col o.column

def hasConflict : Stmt α → Bool
  | .insert _ _ _ _ c _ => c.isSome
  | _ => false

/-- The table that is inserted into. -/
def insertInto : Stmt α → RelIdent
  | .insert t _ _ _ _ _ => t
  | _ => {}

end

/-- What is required of the texts: schemas, aliases and qualifiers are in lower case, literals are no parameters, no
table is called `excluded` where this is the name of the row that was to be inserted. -/
structure Spelled {α : Type} (s : Stmt α) : Prop where
  rels : ∀ r ∈ stmtRels s, lower r.qualifier = r.qualifier ∧ lower r.alias = r.alias
  parts : ∀ p ∈ stmtParts s, p.Plain
  excluded : hasConflict s = true → knownAs (insertInto s) ≠ b!"excluded"

/-- What is required of the database: a number is read as that number, and the casts in conditions, other than those
of parameters, keep values. -/
structure Sane {α V : Type} (S : TServer V) (s : Stmt α) : Prop where
  nat : ∀ n, (S.const (.num (itoa n))).map S.nat = some n
  casts : ∀ t, .cast t ∈ stmtConds s → ∀ v, S.cast (lex t) v = v

section
variable {V : Type} [DecidableEq V] {S : TServer V} {ps : List (Option V)} {field : Generator.Fields V} {f : Slot → Bytes}
  {g : Slot → GoExpr}

/-! ### ON CONFLICT -/

theorem cell_excluded {rel : RelIdent} (h : knownAs rel ≠ b!"excluded") (old new : Row V) (n : Bytes) :
    S.cell ps [(rel, old), ({ name := b!"excluded" }, new)] (.col [.word b!"excluded", .name n]) = some (new n) := by
  rw [TServer.cell, if_neg (by simp)]
  congr 1
  show S.server.col [(rel, old), ({ name := b!"excluded" }, new)] { qualifier := b!"excluded", name := n } = new n
  have h1 : S.server.owns rel { qualifier := b!"excluded", name := n } = false := by
    unfold Server.owns
    rw [if_neg (by simp), decide_eq_false_iff_not]
    exact fun e => h e.symm
  have h2 : S.server.owns { name := b!"excluded" } { qualifier := b!"excluded", name := n } = true := by
    unfold Server.owns
    rw [if_neg (by simp)]
    rfl
  simp only [Server.col, List.find?_cons, h1, h2]

omit [DecidableEq V] in
theorem setTo_excluded (t : Bytes × Bytes) (new : Row V) (n : Bytes) : ∀ l : List Bytes,
    S.server.setTo t l (l.map fun m => some (new m)) n = if n ∈ l then some (new n) else none
  | [] => rfl
  | m :: l => by
    rw [List.map_cons, Server.setTo, setTo_excluded t new n l]
    by_cases h : m = n
    · simp [h]
    · rw [if_neg h]
      have : (n ∈ m :: l) ↔ n ∈ l := by
        rw [List.mem_cons]
        exact ⟨fun hx => hx.resolve_left fun e => h e.symm, .inr⟩
      simp only [this]

theorem onConflict_eq {rel : RelIdent} (h : knownAs rel ≠ b!"excluded") (k : ConflictClause) (new old : Row V) :
    S.onConflict ps rel (conflictTree k) new old = takeOver k.update new old := by
  funext n
  unfold TServer.onConflict
  simp only [conflictTree, List.map_map, Function.comp_def, cell_excluded h, ident, List.map_id']
  rw [Server.assign, setTo_excluded, takeOver]
  split <;> rfl

theorem insertOne_eq {rel : RelIdent} {k : Option ConflictClause} (h : k.isSome = true → knownAs rel ≠ b!"excluded")
    (new : Row V) (rows : List (Row V)) :
    S.insertOne ps rel (k.map conflictTree) new rows = S.server.insertOne (tableOf rel) k new rows := by
  cases k with
  | none => rfl
  | some k =>
    have h := h rfl
    simp only [Option.map_some, TServer.insertOne, Server.insertOne, onConflict_eq h]
    have e1 : S.clash (tableOf rel) (conflictTree k).target new = S.server.clash (tableOf rel) k.target new := rfl
    have e2 : (conflictTree k).set.length = k.update.length := by simp [conflictTree]
    rw [e1, e2]
    rfl

theorem insertAll_eq {rel : RelIdent} {k : Option ConflictClause} (h : k.isSome = true → knownAs rel ≠ b!"excluded") :
    ∀ (new rows : List (Row V)),
    S.insertAll ps rel (k.map conflictTree) new rows = S.server.insertAll (tableOf rel) k new rows
  | [], _ => rfl
  | x :: new, rows => by
    rw [TServer.insertAll, Server.insertAll, insertOne_eq h, insertAll_eq h]

/-! ### ORDER BY, LIMIT, OFFSET -/

theorem notAfter_eq (a b : Joined V) : ∀ (o : List OrderBy), (∀ x ∈ o, lower x.column.qualifier = x.column.qualifier) →
    S.notAfter ps (o.map orderTree) a b = S.server.notAfter o a b
  | [], _ => rfl
  | x :: o, h => by
    have key : ∀ j : Joined V, S.value ps j (.col (colPath x.column)) = S.server.col j x.column := by
      intro j
      show S.server.col j (colNamed (colPath x.column)) = _
      rw [colNamed_path (h x (by simp))]
    rw [List.map_cons, TServer.notAfter, Server.notAfter, notAfter_eq a b o fun y hy => h y (by simp [hy])]
    simp only [orderTree, key]

theorem limit_eq {l : LimitVal Slot} (hg : LimitGram kinds l) (hn : ∀ n, (S.const (.num (itoa n))).map S.nat = some n)
    (hs : ∀ a ∈ l.slots, Bound (S.row []) ps (S.server.cond field []) f g a) :
    S.rows ps (limitTree f l) = S.server.rows field (l.map g) := by
  cases l with
  | none => rfl
  | int n => exact hn n
  | param a =>
    obtain ⟨n, rfl⟩ := atom_num hg
    have := (hs (.num n) (by simp [LimitVal.slots])).2
    show ((treeVal (S.row []) ps (atomEx (lex (f (.num n))))).getD none).map S.nat = _
    rw [this]
    rfl

/-! ### Statements -/

/-- Everything that is needed to relate the effect of a statement to that of its tree. -/
structure Ready (S : TServer V) (ps : List (Option V)) (field : Generator.Fields V) (f : Slot → Bytes) (g : Slot → GoExpr)
    (s : Stmt Slot) : Prop where
  gram : StmtGram kinds s
  spelled : Spelled s
  sane : Sane S s
  bound : ∀ j, ∀ a ∈ s.slots, Bound (S.row j) ps (S.server.cond field j) f g a
  outs : ∀ x ∈ stmtOuts s, Basic x
  news : ∀ x ∈ stmtNews s, Cell x
  wher : ∀ l, s.wher = some l → Total S field (l.map g)
  joins : ∀ x ∈ s.joins, isNil x.cond = false → Total S field (x.cond.map g)

namespace Ready

variable {s : Stmt Slot} (h : Ready S ps field f g s)
include h

theorem where_eq (hg : WhereGram kinds s.wher) :
    S.holds ps (s.wher.map (condsTree f)) = S.server.holds field (s.wher.map (BList.map g)) := by
  refine where_row hg (fun j a ha => ?_) (fun l hl p hp => ?_) (fun l hl t ht => ?_) h.wher
  · cases hw : s.wher with
    | none => rw [hw] at ha; cases ha
    | some l =>
      rw [hw] at ha
      exact h.bound j a (wher_slots hw a ha)
  · refine h.spelled.parts p ?_
    simp only [stmtParts, stmtConds, hl, List.mem_append]
    exact .inl (.inr (.inl hp))
  · refine h.sane.casts t ?_
    simp only [stmtConds, hl, List.mem_append]
    exact .inl ht

theorem join_eq {x : TableJoin Slot} (hx : x ∈ s.joins) (hr : x.rel ∈ stmtRels s) :
    S.joinOf ps (joinTree f x) = S.server.joinOf field (x.map g) := by
  refine join_row (gram_joins h.gram hx) (fun j a ha => h.bound j a (joins_slots hx a ha)) (h.spelled.rels _ hr)
    (fun p hp => ?_) (fun t ht => ?_) (h.joins x hx)
  · refine h.spelled.parts p ?_
    simp only [stmtParts, stmtConds, List.mem_append, List.mem_flatMap]
    exact .inl (.inr (.inr ⟨x, hx, hp⟩))
  · refine h.sane.casts t ?_
    simp only [stmtConds, List.mem_append, List.mem_flatMap]
    exact .inr ⟨x, hx, ht⟩

theorem joins_eq (hr : ∀ x ∈ s.joins, x.rel ∈ stmtRels s) :
    (s.joins.map (joinTree f)).map (S.joinOf ps) = (s.joins.map (TableJoin.map g)).map (S.server.joinOf field) := by
  rw [List.map_map, List.map_map]
  exact List.map_congr_left fun x hx => h.join_eq hx (hr x hx)

theorem order_ok : ∀ x ∈ stmtOrder s, lower x.column.qualifier = x.column.qualifier := fun x hx =>
  h.spelled.parts (.col x.column) (by
    simp only [stmtParts, List.mem_append, List.mem_map]
    exact .inr ⟨x, hx, rfl⟩)

theorem output_eq (j : Joined V) (hg : ValsGram kinds (stmtOuts s)) (hs : ∀ a ∈ (stmtOuts s).flatMap VExpr.slots, a ∈ s.slots) :
    S.output ps j ((stmtOuts s).map (valTree f)) = S.server.output field j ((stmtOuts s).map (VExpr.map g)) :=
  output_of j h.outs hg (fun a ha => h.bound j a (hs a ha)) fun p hp => h.spelled.parts p (by
    simp only [stmtParts, List.flatMap_append, List.mem_append]
    exact .inl (.inl (.inl hp)))

theorem news_eq (j : Joined V) (hg : ValsGram kinds (stmtNews s)) (hs : ∀ a ∈ (stmtNews s).flatMap VExpr.slots, a ∈ s.slots) :
    ((stmtNews s).map (valTree f)).map (S.cell ps j) = ((stmtNews s).map (VExpr.map g)).map (S.server.cell field j) :=
  cells_of j h.news hg (fun a ha => h.bound j a (hs a ha)) fun p hp => h.spelled.parts p (by
    simp only [stmtParts, List.flatMap_append, List.mem_append]
    exact .inl (.inl (.inr hp)))

theorem name_eq {r : RelIdent} (hr : r ∈ stmtRels s) : nameOf (relTree r) = r :=
  nameOf_rel (h.spelled.rels r hr).1 (h.spelled.rels r hr).2

end Ready

theorem atomEx_count (ts : List Tok) : atomEx ts ≠ .call b!"count" [.star] := by
  unfold atomEx atom
  split
  · split <;> simp
  · split <;> simp
  · simp

theorem basic_count : ∀ {x : VExpr Slot}, Basic x → valTree f x ≠ .call b!"count" [.star]
  | .param _, _ => atomEx_count _
  | .lit _, _ => atomEx_count _
  | .col _, _ => by simp [valTree]
  | .cast _ _, _ => by simp [valTree]
  | .nullif _ _, _ => by simp [valTree]
  | .coalesce _ _, _ => by simp [valTree]

/-- FROM and USING. -/
theorem Ready.others_eq {s : Stmt Slot} (h : Ready S ps field f g s) {l : List (TableExpr Slot)} (hl : TablesGram kinds l)
    (hj : s.joins = l.filterMap TableExpr.asJoin) (hr : ∀ r ∈ l.flatMap tableRel, r ∈ stmtRels s) (T : Tables V) :
    S.others ps T (tablesTree f l) = S.server.others field T (l.map (TableExpr.map g)) := by
  unfold TablesGram at hl
  split at hl
  · rfl
  · next r l =>
    have h1 : s.joins = l.filterMap TableExpr.asJoin := by
      rw [hj, List.filterMap_cons]
      rfl
    have h2 := h.joins_eq fun x hx => hr x.rel (by
      rw [h1, List.mem_filterMap] at hx
      obtain ⟨y, hy, hx⟩ := hx
      rw [List.mem_flatMap]
      refine ⟨y, List.mem_cons_of_mem _ hy, ?_⟩
      cases y with
      | join z => cases hx; simp [tableRel]
      | _ => cases hx)
    have h3 : ((l.map (TableExpr.map g)).filterMap TableExpr.asJoin) = (l.filterMap TableExpr.asJoin).map (TableJoin.map g) := by
      clear h2 h1 hr hj hl
      induction l with
      | nil => rfl
      | cons x l ih =>
        cases x with
        | rel r => exact ih
        | values => exact ih
        | join j =>
          rw [List.map_cons, List.filterMap_cons, List.filterMap_cons]
          simp only [TableExpr.map, TableExpr.asJoin, List.map_cons]
          rw [ih]
    rw [tablesTree, TServer.others, List.map_cons, TableExpr.map, Server.others, filterMap_joinPart, h3,
      h.name_eq (hr r (by simp [tableRel]))]
    rw [h1] at h2
    rw [h2]
  · cases hl

/-- The rows of a select. -/
theorem Ready.found_eq {s : Stmt Slot} (h : Ready S ps field f g s) {cols : List Ex} {r : RelIdent} {o : List OrderBy}
    {l k : LimitVal Slot} (hg : SelGram kinds r s.joins s.wher o l k)
    (hr : ∀ x ∈ r :: s.joins.map (·.rel), x ∈ stmtRels s) (T : Tables V) :
    S.found ps T (selTree f cols r s.joins s.wher o l k) =
      (sources T r ((s.joins.map (TableJoin.map g)).map (S.server.joinOf field))).filter
        (S.server.holds field (s.wher.map (BList.map g))) := by
  unfold TServer.found selTree
  simp only
  rw [h.name_eq (hr r (by simp)), h.joins_eq fun x hx => hr x.rel (by
    rw [List.mem_cons, List.mem_map]
    exact .inr ⟨x, hx, rfl⟩), h.where_eq hg.2.2.1]

/-- What the tree does is what the statement does. -/
theorem Ready.does {s : Stmt Slot} (h : Ready S ps field f g s) (T T' : Tables V) (out : List (List (Option V))) :
    S.Does ps T T' out (stmtTree f s) ↔ S.server.Does field T T' out (s.map g) := by
  cases s with
  | insert t cs o vs c r =>
    obtain ⟨h1, h2, ⟨l, rfl, h3, h4⟩, h5, h6⟩ := h.gram
    have e1 : nameOf (relTree t) = t := h.name_eq (by simp [stmtRels])
    have e2 := h.news_eq [] h4 (fun a ha => by simp only [Stmt.slots, List.mem_append]; exact .inl ha)
    have e3 := fun j => h.output_eq j h6 (fun a ha => by simp only [Stmt.slots, List.mem_append]; exact .inr ha)
    simp only [stmtNews, stmtOuts, Option.getD_some] at e2 e3
    simp only [stmtTree, insertTree, TServer.Does, Stmt.map, Server.Does, e1, Option.getD_some, Option.map_some,
      Option.some.injEq, exists_eq_left', List.map_cons, List.map_nil, e2, e3, ident, List.map_map, Function.comp_def,
      List.map_id']
    rw [insertAll_eq (rel := t) h.spelled.excluded]
    simp only [Server.insertAll, List.append_nil]
  | update t cs vs fr w r =>
    obtain ⟨h1, h2, h3, h4, h5, h6, h7⟩ := h.gram
    have e1 : nameOf (relTree t) = t := h.name_eq (by simp [stmtRels])
    have e2 := fun j => h.news_eq j h4 (fun a ha => by
      simp only [Stmt.slots, List.mem_append]; exact .inl (.inl (.inl ha)))
    have e3 := fun j => h.output_eq j h7 (fun a ha => by simp only [Stmt.slots, List.mem_append]; exact .inr ha)
    have e4 := h.others_eq h5 rfl (fun x hx => by simp only [stmtRels, List.mem_cons]; exact .inr hx) T
    have e5 := h.where_eq h6
    simp only [stmtNews, stmtOuts, Stmt.wher] at e2 e3 e5
    simp only [stmtTree, TServer.Does, Stmt.map, Server.Does, e1, e2, e3, e4, e5, ident, List.map_map, Function.comp_def,
      List.map_id']
  | select cs t js w o l k =>
    obtain ⟨h1, h2⟩ := h.gram
    have e1 := fun j => h.output_eq j h1 (fun a ha => by
      simp only [Stmt.slots, List.mem_append]; exact .inl (.inl (.inl (.inl ha))))
    have e2 := fun cols => h.found_eq (cols := cols) h2 (fun x hx => hx) T
    have e3 := fun a b => notAfter_eq (S := S) (ps := ps) a b o h.order_ok
    have e4 := limit_eq (l := l) h2.2.2.2.2.1 h.sane.nat fun a ha => h.bound [] a (by
      simp only [Stmt.slots, List.mem_append]; exact .inl (.inr ha))
    have e5 := limit_eq (l := k) h2.2.2.2.2.2 h.sane.nat fun a ha => h.bound [] a (by
      simp only [Stmt.slots, List.mem_append]; exact .inr ha)
    have e6 : (selTree f (cs.map (valTree f)) t js w o l k).cols ≠ [.call b!"count" [.star]] := by
      show cs.map (valTree f) ≠ _
      intro hx
      have hb := h.outs
      simp only [stmtOuts] at hb
      cases cs with
      | nil => cases hx
      | cons x xs => exact basic_count (f := f) (hb x (by simp)) (List.cons.inj hx).1
    simp only [stmtTree, TServer.Does, Stmt.map, Server.Does]
    rw [if_neg e6]
    simp only [Stmt.joins, Stmt.wher] at e2
    simp only [stmtOuts] at e1
    simp only [e2]
    simp only [selTree, e1, e3, e4, e5]
  | count t js w o k =>
    have h2 := h.gram
    have e2 := fun cols => h.found_eq (cols := cols) h2 (fun x hx => hx) T
    have e5 := limit_eq (l := k) h2.2.2.2.2.2 h.sane.nat fun a ha => h.bound [] a (by
      simp only [Stmt.slots, List.mem_append]; exact .inr ha)
    simp only [Stmt.joins, Stmt.wher] at e2
    simp only [stmtTree, TServer.Does, Stmt.map, Server.Does]
    rw [if_pos (show (selTree f [.call b!"count" [.star]] t js w o .none k).cols =
      [.call b!"count" [.star]] from rfl)]
    simp only [e2]
    have e6 : S.rows ps (limitTree f (.none : LimitVal Slot)) = none := rfl
    simp only [selTree, e5, e6, List.map_eq_nil_iff]
    rfl
  | exists_ n op t js w o l k =>
    obtain ⟨rfl, h2⟩ := h.gram
    have e2 := fun cols => h.found_eq (cols := cols) h2 (fun x hx => hx) T
    have e4 := limit_eq (l := l) h2.2.2.2.2.1 h.sane.nat fun a ha => h.bound [] a (by
      simp only [Stmt.slots, List.mem_append]; exact .inl (.inr ha))
    have e5 := limit_eq (l := k) h2.2.2.2.2.2 h.sane.nat fun a ha => h.bound [] a (by
      simp only [Stmt.slots, List.mem_append]; exact .inr ha)
    simp only [Stmt.joins, Stmt.wher] at e2
    simp only [stmtTree, TServer.Does, Stmt.map, Server.Does]
    simp only [e2]
    simp only [selTree, e4, e5]
    rfl
  | delete t us w r =>
    obtain ⟨h1, h5, h6, h7⟩ := h.gram
    have e1 : nameOf (relTree t) = t := h.name_eq (by simp [stmtRels])
    have e3 := fun j => h.output_eq j h7 (fun a ha => by simp only [Stmt.slots, List.mem_append]; exact .inr ha)
    have e4 := h.others_eq h5 rfl (fun x hx => by simp only [stmtRels, List.mem_cons]; exact .inr hx) T
    have e5 := h.where_eq h6
    simp only [stmtOuts, Stmt.wher] at e3 e5
    simp only [stmtTree, TServer.Does, Stmt.map, Server.Does, e1, e3, e4, e5]

end

end Verif.Generator.Gram
