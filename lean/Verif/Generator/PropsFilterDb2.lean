import Verif.Generator.PropsFilterDb
import Verif.Generator.PropsTreeDb3

/- Property C96: what statements with a filter do to the tables. Statements. -/
namespace Verif.Generator.Gram
open Verif.Analysis Verif.Postgres Verif.Generator.Lex Print

/-- The statement with the parenthesis of EXISTS closed. -/
def closed {α : Type} : Stmt α → Stmt α
  | .exists_ n _ t js w o l k => .exists_ n false t js w o l k
  | s => s

theorem limit_none {α : Type} {l : LimitVal α} (h : l.isNone = true) : l = .none := by
  cases l <;> first | rfl | cases h

section
variable {α : Type} {f : α → Bytes}

theorem head_gram {s : Stmt α} (h : HeadGram f s) (he : endsBeforeWhere s = true) : StmtGram f (closed s) := by
  cases s with
  | insert => cases h
  | update t cs vs fr w r =>
    simp only [endsBeforeWhere, Bool.and_eq_true, Option.isNone_iff_eq_none, List.isEmpty_iff] at he
    obtain ⟨rfl, rfl⟩ := he
    exact ⟨h.1, h.2.1, h.2.2.1, h.2.2.2.1, h.2.2.2.2, (by intro l hl; cases hl), (by intro v hv; cases hv)⟩
  | select cs t js w o l k =>
    simp only [endsBeforeWhere, Bool.and_eq_true, Option.isNone_iff_eq_none, List.isEmpty_iff] at he
    obtain ⟨⟨⟨rfl, rfl⟩, h3⟩, h4⟩ := he
    rw [limit_none h3, limit_none h4]
    exact ⟨h.1, h.2.1, h.2.2, (by intro l hl; cases hl), (by intro v hv; cases hv), trivial, trivial⟩
  | count t js w o k =>
    simp only [endsBeforeWhere, Bool.and_eq_true, Option.isNone_iff_eq_none, List.isEmpty_iff] at he
    obtain ⟨⟨rfl, rfl⟩, h4⟩ := he
    rw [limit_none h4]
    exact ⟨h.1, h.2, (by intro l hl; cases hl), (by intro v hv; cases hv), trivial, trivial⟩
  | exists_ n op t js w o l k =>
    simp only [endsBeforeWhere, Bool.and_eq_true, Option.isNone_iff_eq_none, List.isEmpty_iff] at he
    obtain ⟨⟨⟨⟨_, rfl⟩, rfl⟩, h3⟩, h4⟩ := he
    rw [limit_none h3, limit_none h4]
    exact ⟨rfl, h.1, h.2, (by intro l hl; cases hl), (by intro v hv; cases hv), trivial, trivial⟩
  | delete t us w r =>
    simp only [endsBeforeWhere, Bool.and_eq_true, Option.isNone_iff_eq_none, List.isEmpty_iff] at he
    obtain ⟨rfl, rfl⟩ := he
    exact ⟨h.1, h.2, (by intro l hl; cases hl), (by intro v hv; cases hv)⟩

theorem closed_spelled {s : Stmt α} (h : Spelled s) : Spelled (closed s) := by
  cases s <;> exact ⟨h.1, h.2, h.3⟩

theorem closed_sane {V : Type} {S : TServer V} {s : Stmt α} (h : Sane S s) : Sane S (closed s) := by
  cases s <;> exact ⟨h.1, h.2⟩

theorem closed_slots (s : Stmt α) : (closed s).slots = s.slots := by cases s <;> rfl
theorem closed_outs (s : Stmt α) : stmtOuts (closed s) = stmtOuts s := by cases s <;> rfl
theorem closed_news (s : Stmt α) : stmtNews (closed s) = stmtNews s := by cases s <;> rfl
theorem closed_wher (s : Stmt α) : (closed s).wher = s.wher := by cases s <;> rfl
theorem closed_joins (s : Stmt α) : (closed s).joins = s.joins := by cases s <;> rfl

end

section
variable {V : Type} [DecidableEq V] {S : TServer V} {ps : List (Option V)} {field : Generator.Fields V} {f : Slot → Bytes}
  {g : Slot → GoExpr} {x : FilterT}

/-- A select with the conditions, the order and the limits of a filter. -/
theorem select_filtered {cs : List (VExpr Slot)} {t : RelIdent} {js : List (TableJoin Slot)} {tl : Tail Slot}
    (h : Ready S ps field f g (.select cs t js none [] .none .none)) (T T' : Tables V) (out : List (List (Option V))) :
    S.Does ps T T' out (filteredTree f x (.select cs t js none [] .none .none) tl) ↔
      T' = T ∧ ∃ l, l.Perm ((sources T t ((js.map (TableJoin.map g)).map (S.server.joinOf field))).filter (S.holds ps x.wher)) ∧
        l.Pairwise (fun a b => S.notAfter ps x.order a b = true) ∧
        out = (window (S.rows ps x.limit) (S.rows ps x.offset) l).map fun j =>
          S.server.output field j (cs.map (VExpr.map g)) := by
  obtain ⟨h1, h2⟩ := h.gram
  have e1 := fun j => h.output_eq j h1 (fun a ha => by
    simp only [Stmt.slots, List.mem_append]; exact .inl (.inl (.inl (.inl ha))))
  have e2 : nameOf (relTree t) = t := h.name_eq (by simp [stmtRels])
  have e3 := h.joins_eq (fun y hy => by
    simp only [stmtRels, List.mem_cons, List.mem_map]
    exact .inr ⟨y, hy, rfl⟩)
  have e6 : cs.map (valTree f) ≠ [.call b!"count" [.star]] := by
    intro hx
    have hb := h.outs
    simp only [stmtOuts] at hb
    cases cs with
    | nil => cases hx
    | cons x xs => exact basic_count (f := f) (hb x (by simp)) (List.cons.inj hx).1
  simp only [stmtOuts] at e1
  simp only [Stmt.joins] at e3
  simp only [filteredTree, TServer.Does, TServer.found]
  rw [if_neg e6]
  simp only [e1, e2, e3]

theorem count_filtered {t : RelIdent} {js : List (TableJoin Slot)} {tl : Tail Slot}
    (h : Ready S ps field f g (.count t js none [] .none)) (T T' : Tables V) (out : List (List (Option V))) :
    S.Does ps T T' out (filteredTree f x (.count t js none [] .none) tl) ↔
      T' = T ∧ x.order = [] ∧ out = window (S.rows ps x.limit) (S.rows ps x.offset)
        [[some (S.ofNat ((sources T t ((js.map (TableJoin.map g)).map (S.server.joinOf field))).filter
          (S.holds ps x.wher)).length)]] := by
  have e2 : nameOf (relTree t) = t := h.name_eq (by simp [stmtRels])
  have e3 := h.joins_eq (fun y hy => by
    simp only [stmtRels, List.mem_cons, List.mem_map]
    exact .inr ⟨y, hy, rfl⟩)
  simp only [Stmt.joins] at e3
  simp only [filteredTree, TServer.Does, TServer.found, if_true, e2, e3]

theorem exists_filtered {n op : Bool} {t : RelIdent} {js : List (TableJoin Slot)} {tl : Tail Slot}
    (h : Ready S ps field f g (.exists_ n false t js none [] .none .none)) (T T' : Tables V) (out : List (List (Option V))) :
    S.Does ps T T' out (filteredTree f x (.exists_ n op t js none [] .none .none) tl) ↔
      T' = T ∧
        let found := window (S.rows ps x.limit) (S.rows ps x.offset)
          ((sources T t ((js.map (TableJoin.map g)).map (S.server.joinOf field))).filter (S.holds ps x.wher))
        out = [[some (S.ofBool (if n then found.isEmpty else !found.isEmpty))]] := by
  have e2 : nameOf (relTree t) = t := h.name_eq (by simp [stmtRels])
  have e3 := h.joins_eq (fun y hy => by
    simp only [stmtRels, List.mem_cons, List.mem_map]
    exact .inr ⟨y, hy, rfl⟩)
  simp only [Stmt.joins] at e3
  simp only [filteredTree, TServer.Does, TServer.found, e2, e3]

theorem update_filtered {t : RelIdent} {cs : List Bytes} {vs : List (VExpr Slot)} {fr : List (TableExpr Slot)} {tl : Tail Slot}
    (h : Ready S ps field f g (.update t cs vs fr none []))
    (hr : ∀ j, S.output ps j ((tailVals tl).map (valTree f)) = S.server.output field j ((tailVals tl).map (VExpr.map g)))
    (T T' : Tables V) (out : List (List (Option V))) :
    S.Does ps T T' out (filteredTree f x (.update t cs vs fr none []) tl) ↔
      ∃ ch : List (Row V × Option (Joined V)),
        ch.map (·.1) = T (tableOf t) ∧
        (∀ y ∈ ch, Chosen (S.server.others field T (fr.map (TableExpr.map g))) (S.holds ps x.wher) (t, y.1) y.2) ∧
        let change := fun (old : Row V) (o : Joined V) =>
          S.server.assign (tableOf t) cs ((vs.map (VExpr.map g)).map (S.server.cell field ((t, old) :: o))) old
        T' = setTable T (tableOf t) (ch.map fun y => y.2.elim y.1 (change y.1)) ∧
        out = ch.filterMap fun y => y.2.map fun o =>
          S.server.output field ((t, change y.1 o) :: o) ((tailVals tl).map (VExpr.map g)) := by
  obtain ⟨h1, h2, h3, h4, h5, h6, h7⟩ := h.gram
  have e1 : nameOf (relTree t) = t := h.name_eq (by simp [stmtRels])
  have e2 := fun j => h.news_eq j h4 (fun a ha => by
    simp only [Stmt.slots, List.mem_append]; exact .inl (.inl (.inl ha)))
  have e4 := h.others_eq h5 rfl (fun x hx => by simp only [stmtRels, List.mem_cons]; exact .inr hx) T
  simp only [stmtNews] at e2
  have e3 : (cs.map Tok.name).map ident = cs := by
    rw [List.map_map]
    exact List.map_id' _
  simp only [filteredTree, TServer.Does, e1, e2, e3, e4, hr]

theorem delete_filtered {t : RelIdent} {us : List (TableExpr Slot)} {tl : Tail Slot}
    (h : Ready S ps field f g (.delete t us none [])) (T T' : Tables V) (out : List (List (Option V))) :
    S.Does ps T T' out (filteredTree f x (.delete t us none []) tl) ↔
      ∃ ch : List (Row V × Option (Joined V)),
        ch.map (·.1) = T (tableOf t) ∧
        (∀ y ∈ ch, Chosen (S.server.others field T (us.map (TableExpr.map g))) (S.holds ps x.wher) (t, y.1) y.2) ∧
        T' = setTable T (tableOf t) ((ch.filter fun y => y.2.isNone).map (·.1)) ∧
        out = ch.filterMap fun y => y.2.map fun _ => [] := by
  obtain ⟨h1, h5, h6, h7⟩ := h.gram
  have e1 : nameOf (relTree t) = t := h.name_eq (by simp [stmtRels])
  have e4 := h.others_eq h5 rfl (fun x hx => by simp only [stmtRels, List.mem_cons]; exact .inr hx) T
  simp only [filteredTree, TServer.Does, e1, e4]
  rfl

end

end Verif.Generator.Gram
