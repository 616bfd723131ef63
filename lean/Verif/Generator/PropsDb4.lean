import Verif.Generator.PropsDb3

/- C81: inserting and updating a slice of records. -/
namespace Verif.Generator
open Verif.Analysis Verif.Postgres

/-! ### Rows of a VALUES list -/

/-- How a value is written; the parameters are numbers. -/
def exprText : VExpr Nat → Bytes
  | .default => b!"DEFAULT"
  | .param n => ordinal n
  | .lit s => s
  | .cast x t => exprText x ++ b!"::" ++ t
  | .nullif x y => b!"NULLIF(" ++ exprText x ++ b!", " ++ exprText y ++ b!")"
  | _ => []

/-- How a row is written. -/
def valuesText (row : List (VExpr Nat)) : Bytes := b!"(" ++ List.intercalate b!", " (row.map exprText) ++ b!")"

/-- The parameters numbered in their order, from the one after `p` on. -/
def number (p : Nat) : List (VExpr GoExpr) → List (VExpr Nat)
  | [] => []
  | x :: xs => x.map (fun _ => p + 1) :: number (p + x.slots.length) xs

/-- The value for a written field in a row of a slice. -/
def rowVal (q : Query) (w : FieldWrite) : VExpr GoExpr :=
  if canUseDefault q w.field then .default
  else
    match (if w.needsNullif then nullLit w.column else none) with
    | some l => .cast (.nullif (.param (writeArg q w)) (.lit l)) w.column.type.nameFmt
    | none =>
      if q.kind = .update ∧ w.needsNullif = false then .cast (.param (writeArg q w)) w.column.type.nameFmt
      else .param (writeArg q w)

/-- The values of a row. -/
def rowExprs (q : Query) (t : TargetInfo) : List (VExpr GoExpr) :=
  t.writes.map (rowVal q) ++
    if q.kind = .update then (onlyKeys t).map fun p => .param (fieldSel (.ident b!"v") p.field) else []

/-- The expression is written as the cell. -/
def IsCell (x : VExpr GoExpr) (c : Cell) : Prop :=
  match c with
  | .default => x = .default
  | .value pre post a => x.slots = [a] ∧ ∀ n, exprText (x.map fun _ => n) = pre ++ ordinal n ++ post

inductive AreCells : List (VExpr GoExpr) → List Cell → Prop where
  | nil : AreCells [] []
  | cons {x c xs cs} : IsCell x c → AreCells xs cs → AreCells (x :: xs) (c :: cs)

theorem AreCells.append {xs xs' : List (VExpr GoExpr)} {cs cs' : List Cell} (h : AreCells xs cs)
    (h' : AreCells xs' cs') : AreCells (xs ++ xs') (cs ++ cs') := by
  induction h with
  | nil => exact h'
  | cons a _ ih => exact .cons a ih

theorem AreCells.map {A : Type} (f : A → VExpr GoExpr) (g : A → Cell) (l : List A) (h : ∀ a, IsCell (f a) (g a)) :
    AreCells (l.map f) (l.map g) := by
  induction l with
  | nil => exact .nil
  | cons a l ih => exact .cons (h a) ih

theorem rowVal_cell (q : Query) (w : FieldWrite) : IsCell (rowVal q w) (writeCell q w) := by
  unfold rowVal writeCell
  by_cases hd : canUseDefault q w.field = true
  · rw [if_pos hd, if_pos hd]; rfl
  · rw [if_neg hd, if_neg hd]
    cases (if w.needsNullif = true then nullLit w.column else none) with
    | some l => exact ⟨rfl, fun n => by simp [VExpr.map, exprText]⟩
    | none =>
      by_cases hu : q.kind = .update ∧ w.needsNullif = false
      · simp only [if_pos hu]
        exact ⟨rfl, fun n => by simp [VExpr.map, exprText]⟩
      · simp only [if_neg hu]
        exact ⟨rfl, fun n => by simp [VExpr.map, exprText]⟩

theorem rowExprs_cells (q : Query) (t : TargetInfo) : AreCells (rowExprs q t) (batchCells q t) := by
  unfold rowExprs batchCells
  refine (AreCells.map _ _ _ (rowVal_cell q)).append ?_
  split
  · exact AreCells.map _ _ _ fun p => ⟨rfl, fun n => by simp [VExpr.map, exprText]⟩
  · exact .nil

theorem number_text {xs : List (VExpr GoExpr)} {cs : List Cell} (h : AreCells xs cs) :
    ∀ p, (number p xs).map exprText = cellsFrom p cs := by
  induction h with
  | nil => intro p; rfl
  | @cons x c xs cs hx _ ih =>
    intro p
    rw [number, List.map_cons, cellsFrom_cons, ih]
    cases c with
    | default =>
      cases hx
      rfl
    | value pre post a =>
      obtain ⟨h1, h2⟩ := hx
      rw [h1, h2]
      rfl

theorem slots_args {xs : List (VExpr GoExpr)} {cs : List Cell} (h : AreCells xs cs) :
    xs.flatMap VExpr.slots = cs.filterMap Cell.arg := by
  induction h with
  | nil => rfl
  | @cons x c xs cs hx _ ih =>
    rw [List.flatMap_cons, List.filterMap_cons, ih]
    cases c with
    | default => cases hx; rfl
    | value pre post a => rw [hx.1]; rfl

theorem rowText_eq {xs : List (VExpr GoExpr)} {cs : List Cell} (h : AreCells xs cs) (i : Nat) :
    rowText cs i = valuesText (number (i * (xs.flatMap VExpr.slots).length) xs) := by
  rw [rowText, valuesText, number_text h, slots_args h, ← countP_value]
  rfl

section
variable {V : Type} (S : Server V) [DecidableEq V]

/-- A value of a VALUES list, given those of the parameters; `none` is DEFAULT. -/
def Server.cellAt {α : Type} (param : α → Option V) : VExpr α → Option (Option V)
  | .default => none
  | x => some (S.val param (fun _ => none) x)

theorem val_map {α β : Type} (W : SqlWorld V) (f : α → β) (param : β → Option V) (col : ColIdent → Option V) (x : VExpr α) :
    W.val param col (x.map f) = W.val (param ∘ f) col x := by
  induction x <;> simp_all [VExpr.map, SqlWorld.val]

theorem val_congr {α : Type} (W : SqlWorld V) (p p' : α → Option V) (col : ColIdent → Option V) (x : VExpr α)
    (h : ∀ a ∈ x.slots, p a = p' a) : W.val p col x = W.val p' col x := by
  induction x <;> simp_all [VExpr.slots, SqlWorld.val]

theorem cellAt_map {α β : Type} (f : α → β) (param : β → Option V) (x : VExpr α) :
    S.cellAt param (x.map f) = S.cellAt (param ∘ f) x := by
  cases x <;> simp only [VExpr.map, Server.cellAt, SqlWorld.val, Function.comp, val_map] <;> rfl

theorem cellAt_congr {α : Type} (p p' : α → Option V) (x : VExpr α) (h : ∀ a ∈ x.slots, p a = p' a) :
    S.cellAt p x = S.cellAt p' x := by
  have := val_congr S.toSqlWorld p p' (fun _ => none) x h
  cases x <;> simp_all [Server.cellAt]

/-- The values of a numbered row are those of its expressions. -/
theorem number_values {xs : List (VExpr GoExpr)} {cs : List Cell} (h : AreCells xs cs) (env : Nat → Option V)
    (f : GoExpr → Option V) : ∀ p,
    (∀ m a, (xs.flatMap VExpr.slots)[m]? = some a → env (p + m + 1) = f a) →
    (number p xs).map (S.cellAt env) = xs.map (S.cellAt f) := by
  induction h with
  | nil => intro p _; rfl
  | @cons x c xs cs hx _ ih =>
    intro p he
    rw [number, List.map_cons, List.map_cons, cellAt_map]
    have hslots : x.slots = [] ∨ ∃ a, x.slots = [a] := by
      cases c with
      | default => cases hx; exact .inl rfl
      | value pre post a => exact .inr ⟨a, hx.1⟩
    congr 1
    · apply cellAt_congr
      intro a ha
      rcases hslots with h0 | ⟨b, hb⟩
      · rw [h0] at ha; cases ha
      · rw [hb, List.mem_singleton] at ha
        subst ha
        have := he 0 a (by rw [List.flatMap_cons, hb]; rfl)
        simpa using this
    · apply ih
      intro m a hm
      have := he (x.slots.length + m) a (by rw [List.flatMap_cons, List.getElem?_append_right (by omega)]; simpa using hm)
      rw [← this]
      congr 1
      omega

theorem flatMap_get {A B : Type} (g : A → List B) (k : Nat) (hk : ∀ a, (g a).length = k) :
    ∀ (l : List A) (i : Nat) (a : A), l[i]? = some a → ∀ m < k, (l.flatMap g)[i * k + m]? = (g a)[m]? := by
  intro l
  induction l with
  | nil => intro i a h; simp at h
  | cons x l ih =>
    intro i a h m hm
    rw [List.flatMap_cons]
    cases i with
    | zero =>
      simp only [List.getElem?_cons_zero, Option.some.injEq] at h
      subst h
      rw [Nat.zero_mul, Nat.zero_add, List.getElem?_append_left (by rw [hk]; exact hm)]
    | succ i =>
      rw [List.getElem?_cons_succ] at h
      rw [List.getElem?_append_right (by rw [hk, Nat.succ_mul]; omega), hk]
      have : (i + 1) * k + m - k = i * k + m := by rw [Nat.succ_mul]; omega
      rw [this]
      exact ih i a h m hm

/-- The rows of a query for a slice of records, their parameters numbered. -/
def batchRows (q : Query) (t : TargetInfo) (n : Nat) : List (List (VExpr Nat)) :=
  (List.range n).map fun i => number (i * ((rowExprs q t).flatMap VExpr.slots).length) (rowExprs q t)

/-- The value of the n-th parameter, as the database takes it. -/
def argAt (db : Val → Option V) (args : List Val) (n : Nat) : Option V := (args[n - 1]?).bind db

variable {cat : Catalog} {q : Query} {t : TargetInfo} {c : Code}

/-- The text sent has the rows, and their values are those of the records. -/
theorem batch_rows (h : Batch cat q t) (hw : t.writes ≠ []) (hc : generate q t = some c) (w : World)
    (hn : w.records ≠ []) (hmax : w.records.length * c.args.length ≤ 65535) (db : Val → Option V)
    (args : List Val) (ha : sentArgs q w c = some args) :
    (∀ main tail, recordText w c main tail =
      some (main ++ List.intercalate b!"," ((batchRows q t w.records.length).map valuesText) ++
        (match tail with
         | none => []
         | some x => b!" " ++ x))) ∧
    (batchRows q t w.records.length).map (fun row => row.map (S.cellAt (argAt db args))) =
      w.records.map fun r => (rowExprs q t).map (S.cellAt fun a => db (eval r a)) := by
  have hcells := rowExprs_cells q t
  have hslots : (rowExprs q t).flatMap VExpr.slots = c.args := by
    rw [slots_args hcells, C41_record_arguments h hc]
  constructor
  · intro main tail
    rw [C41_text h hw hc w hn hmax, batchRows, List.map_map]
    have : (fun i => rowText (batchCells q t) i) = valuesText ∘ fun i =>
        number (i * ((rowExprs q t).flatMap VExpr.slots).length) (rowExprs q t) :=
      funext fun i => rowText_eq hcells i
    rw [← this]
    cases tail <;> rfl
  · rw [C41_arguments h hc w, Option.some.injEq] at ha
    rw [batchRows, List.map_map]
    apply List.ext_getElem?
    intro i
    rw [List.getElem?_map, List.getElem?_map]
    cases hr : w.records[i]? with
    | none =>
      have : w.records.length ≤ i := List.getElem?_eq_none_iff.1 hr
      rw [List.getElem?_eq_none_iff.2 (by simpa using this)]
      rfl
    | some r =>
      have hi : i < w.records.length := (List.getElem?_eq_some_iff.1 hr).1
      rw [List.getElem?_range hi]
      simp only [Option.map_some, Function.comp, Option.some.injEq]
      apply number_values S hcells
      intro m a hm
      rw [hslots] at hm ⊢
      have hlt : m < c.args.length := (List.getElem?_eq_some_iff.1 hm).1
      have hg := flatMap_get (fun r : GoExpr → Val => c.args.map (eval r)) c.args.length (by simp) w.records i r hr m hlt
      unfold argAt
      rw [← ha, Nat.add_sub_cancel, hg, List.getElem?_map, hm]
      rfl

end
end Verif.Generator
