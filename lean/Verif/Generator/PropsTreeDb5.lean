import Verif.Generator.PropsTreeDb3
import Verif.Generator.PropsDb5

/- Property C95: the rows of a statement for a slice of records. -/
namespace Verif.Generator.Gram
open Verif.Analysis Verif.Postgres Verif.Generator.Lex Print

/-! ### The rows of the text -/

section
variable {α β : Type}

theorem valTree_map (f : β → Bytes) (g : α → β) : ∀ x : VExpr α, valTree f (x.map g) = valTree (fun a => f (g a)) x
  | .default => rfl
  | .param _ => rfl
  | .col _ => rfl
  | .xcol _ => rfl
  | .lit _ => rfl
  | .cast x _ => by simp only [VExpr.map, valTree, valTree_map f g x]
  | .nullif x y => by simp only [VExpr.map, valTree, valTree_map f g x, valTree_map f g y]
  | .coalesce x y => by simp only [VExpr.map, valTree, valTree_map f g x, valTree_map f g y]
  | .call _ x => by simp only [VExpr.map, valTree, valTree_map f g x]
  | .quantified _ x => by simp only [VExpr.map, valTree, valTree_map f g x]
  | .absent => rfl

/-- The expression without what is in its slots. -/
def shape (x : VExpr α) : VExpr Unit := x.map fun _ => ()

theorem shape_tree {x : VExpr α} {y : VExpr β} (h : shape x = shape y) (s : Bytes) :
    valTree (fun _ => s) x = valTree (fun _ => s) y := by
  have := congrArg (valTree fun _ => s) h
  rwa [shape, shape, valTree_map, valTree_map] at this

theorem shape_default {x : VExpr α} (h : shape x = .default) : x = .default := by
  cases x <;> first | rfl | cases h

end

theorem cells_number {xs : List (VExpr GoExpr)} {cs : List Generator.Cell} (h : AreCells xs cs) :
    ∀ (vs : List (VExpr Slot)) (p : Nat), vs.map shape = xs.map shape →
      (cells p vs).map (·.2) = (number p xs).map (valTree ordinal) := by
  induction h with
  | nil =>
    intro vs p hv
    cases vs with
    | nil => rfl
    | cons => cases hv
  | @cons x c xs cs hx _ ih =>
    intro vs p hv
    cases vs with
    | nil => cases hv
    | cons v vs =>
      obtain ⟨h1, h2⟩ := List.cons.inj hv
      rw [number, List.map_cons, valTree_map]
      by_cases hd : x = .default
      · subst hd
        rw [shape_default h1]
        simp only [cells, List.map_cons, VExpr.slots, List.length_nil, Nat.add_zero]
        rw [ih vs p h2]
        rfl
      · have hs : x.slots.length = 1 := by
          cases c with
          | default => exact absurd hx hd
          | value pre post a => rw [hx.1]; rfl
        have hv : v ≠ .default := by
          intro e
          subst e
          exact hd (shape_default h1.symm)
        have e : cells p (v :: vs) = (valToks (fun _ => ordinal (p + 1)) v, valTree (fun _ => ordinal (p + 1)) v) ::
            cells (p + 1) vs := by
          cases v <;> first | exact absurd rfl hv | rfl
        rw [e, List.map_cons, hs, ih vs (p + 1) h2, shape_tree h1]

theorem writeVal_shape {q : Query} (hs : q.rel.type.isSlice = true) (g : G) (w : FieldWrite) :
    shape (writeVal q g w).1 = shape (rowVal q w) := by
  unfold writeVal rowVal
  by_cases hd : canUseDefault q w.field = true
  · simp only [hd, if_true]; rfl
  · simp only [hd, Bool.false_eq_true, if_false]
    have hu : q.isSliceUpdate = decide (q.kind = .update) := by simp [Query.isSliceUpdate, hs]
    cases hn : w.needsNullif with
    | true =>
      simp only [if_true, Bool.true_eq_false, and_false, if_false, nullLit, addNullif]
      by_cases ho : w.column.type.oid = Oid.uuid
      · simp only [ho, if_true, textUnlessParam]
        rfl
      · simp only [ho, if_false]
        cases w.column.type.zeroValue <;> rfl
    | false =>
      simp only [Bool.false_eq_true, if_false, hu, decide_eq_true_eq, and_true]
      by_cases hk : q.kind = .update
      · simp only [hk, if_true]; rfl
      · simp only [hk, if_false]; rfl

theorem mapSt_shape {B : Type} (f : G → B → VExpr Slot × G) (e : B → VExpr GoExpr) (h : ∀ g x, shape (f g x).1 = shape (e x)) :
    ∀ (xs : List B) (g : G), (mapSt f g xs).1.map shape = (xs.map e).map shape
  | [], _ => rfl
  | x :: xs, g => by
    simp only [mapSt, List.map_cons, h, mapSt_shape f e h xs]

theorem rowVals_eq {cat : Catalog} {q : Query} {t : TargetInfo} {c : Code} (h : Batch cat q t) (hw : t.writes ≠ [])
    (hc : generate q t = some c) : c.rowVals.map shape = (rowExprs q t).map shape := by
  obtain ⟨_, _, _, _, _, _, _, _, _, hr⟩ := generate_split hc
  obtain ⟨hs, hk⟩ := h.kind
  rw [hr]
  have hlen : 0 < t.writes.length := List.length_pos_iff.2 hw
  unfold targetValues rowExprs
  rcases hk with hk | hk
  · have hu : q.isSliceUpdate = false := by simp [Query.isSliceUpdate, hk]
    simp only [hu, Bool.false_and, Bool.false_eq_true, if_false, hk, reduceCtorEq, List.append_nil]
    exact mapSt_shape _ _ (writeVal_shape hs) _ _
  · have hu : q.isSliceUpdate = true := by simp [Query.isSliceUpdate, hk, hs]
    simp only [hu, Bool.true_and, decide_eq_true_eq, hlen, if_true, hk, onlyKeys_eq, List.map_append]
    rw [mapSt_shape _ (rowVal q) (writeVal_shape hs), mapSt_shape pkeyVal (fun p => .param (fieldSel (.ident b!"v") p.field)) fun _ _ => rfl]

/-- The rows that are parsed are those that are numbered. -/
theorem rowsTree_eq {cat : Catalog} {q : Query} {t : TargetInfo} {c : Code} (h : Batch cat q t) (hw : t.writes ≠ [])
    (hc : generate q t = some c) (n : Nat) :
    rowsTree c.rowVals c.args.length n = (batchRows q t n).map fun row => row.map (valTree ordinal) := by
  have hslots : (rowExprs q t).flatMap VExpr.slots = c.args := by
    rw [slots_args (rowExprs_cells q t), C41_record_arguments h hc]
  unfold rowsTree batchRows
  rw [hslots, List.map_map]
  refine List.map_congr_left fun i _ => ?_
  exact cells_number (rowExprs_cells q t) c.rowVals _ (rowVals_eq h hw hc)

/-! ### Their values -/

theorem nullLit_plain {c : Column} {l : Bytes} (h : nullLit c = some l) : ∀ n, lex l ≠ [.param n] := by
  have key : ∀ x ∈ b!"''" :: typeToZeroValue.map (·.2), ∀ n, lex x ≠ [.param n] := by
    have : ((b!"''" :: typeToZeroValue.map (·.2)).all fun x => !(match lex x with
      | [.param _] => true
      | _ => false)) = true := by decide +kernel
    intro x hx
    have := List.all_eq_true.1 this x hx
    intro n hn
    rw [hn] at this
    cases this
  refine key l ?_
  unfold nullLit at h
  split at h
  · cases h; simp
  · unfold PgType.zeroValue at h
    obtain ⟨k, hk⟩ : ∃ k, (k, l) ∈ typeToZeroValue := by
      clear key
      revert h
      generalize typeToZeroValue = tt
      induction tt with
      | nil => intro h; cases h
      | cons x tt ih =>
        intro h
        rw [List.lookup_cons] at h
        split at h
        · cases h; exact ⟨x.1, by simp⟩
        · obtain ⟨k, hk⟩ := ih h
          exact ⟨k, List.mem_cons_of_mem _ hk⟩
    exact List.mem_cons_of_mem _ (List.mem_map.2 ⟨_, hk, rfl⟩)

theorem nullLit_fits {w : FieldWrite} (hf : WriteFits w) {l : Bytes} (h : nullLit w.column = some l) : AtomText l := by
  unfold nullLit at h
  split at h
  · cases h
    decide
  · exact zeroValue_atom hf.2.2 h

section
variable {V : Type} [DecidableEq V] {S : TServer V} {sent : Val → Option V} {args : List Val}

omit [DecidableEq V] in
theorem arg_value (n : Nat) : ((args.map sent)[n]?).getD none = argAt sent args (n + 1) := by
  unfold argAt
  rw [List.getElem?_map, Nat.add_sub_cancel]
  cases args[n]? <;> rfl

/-- The value of a cell of a row. -/
theorem row_cell {q : Query} (w : FieldWrite) (hfit : WriteFits w) (n : Nat)
    (hcast : q.kind = .update → ∀ v, S.cast (lex w.column.type.nameFmt) v = v) :
    S.cell (args.map sent) [] (valTree ordinal ((rowVal q w).map fun _ => n + 1)) =
      S.server.cellAt (argAt sent args) ((rowVal q w).map fun _ => n + 1) := by
  have hpar : ∀ j, treeVal (S.row j) (args.map sent) (atomEx (lex (ordinal (n + 1)))) = (args.map sent)[n]? := by
    intro j
    rw [show lex (ordinal (n + 1)) = [.param (itoa (n + 1))] from (reads_ordinal _).lex]
    exact numbered_val n
  have hex : atomEx (lex (ordinal (n + 1))) = .const (.param (itoa (n + 1))) := by
    rw [show lex (ordinal (n + 1)) = [.param (itoa (n + 1))] from (reads_ordinal _).lex]
    rfl
  unfold rowVal
  split
  · rfl
  · split
    · next l hl =>
      have hl : nullLit w.column = some l := by
        split at hl
        · exact hl
        · cases hl
      have h1 : AtomText l := nullLit_fits hfit hl
      have h2 := nullLit_plain hl
      obtain ⟨v, hv⟩ := atom_val (D := S.row []) (ps := args.map sent) h1 h2
      have h3 := (about_row (S := S) (ps := args.map sent) (field := fun _ => none) []).lit l v h2 hv
      have h3 : S.server.lit l = v := h3
      simp only [VExpr.map, valTree, TServer.cell, Server.cellAt, TServer.value, treeVal, hpar, hv, SqlWorld.val,
        ← arg_value, h3]
      rw [if_neg (by simp)]
      congr 1
      cases (args.map sent)[n]? with
      | none =>
        simp only [Option.bind_none, Option.map_none, Option.getD_none]
        split <;> rfl
      | some u =>
        simp only [Option.bind_some, call2, if_true, Option.map_some, Option.getD_some, castAs, isParam,
          Bool.false_eq_true, if_false, TServer.row]
        congr 1
        exact nullif_eq u v
    · split
      · next hu =>
        simp only [VExpr.map, valTree, TServer.cell, Server.cellAt, TServer.value, treeVal, hpar, SqlWorld.val, ← arg_value]
        rw [if_neg (by simp)]
        congr 1
        have : (S.server.cast w.column.type.nameFmt) = id := funext (hcast hu.1)
        rw [this, hex]
        cases (args.map sent)[n]? with
        | none => rfl
        | some u => simp [castAs, isParam]
      · simp only [VExpr.map, valTree, TServer.cell, Server.cellAt, TServer.value, hpar, SqlWorld.val, ← arg_value]
        rw [if_neg (by rw [hex]; simp)]

end

end Verif.Generator.Gram
