import Verif.Generator.PropsParams2
import Verif.Generator.Run
import Verif.Filter.Props
import Verif.Generator.PropsBatch
import Verif.Generator.PropsOutput

/- C67: a statement whose rows are selected by a filter; `q.Filter.ToSQL(n)` is appended to its text at run
time, and the parameters of the filter to its arguments. -/
namespace Verif.Generator
open Verif.Analysis Verif.Postgres

/-! ### The arguments -/

theorem fallback_none {q : Query} (hl : q.limit = none) (ho : q.offset = none) (w : World) :
    (fallback q w).field = w.field := by
  simp [fallback, fallbackOne, hl, ho]

theorem Plain.no_slices {cat : Catalog} {q : Query} {t : TargetInfo} {c : Code} (h : Plain cat q t)
    (hf : q.filter.isSome = true) (hc : generate q t = some c) : c.g.slices = [] := by
  have hw : q.wher = none := h.toBuilt.shape.filterOnly (by cases hx : q.filter <;> simp_all)
  rw [(h.spec.2 c hc).2.2, whereSlices, hw]

/-- What is sent with a filter. -/
theorem sent_filter {cat : Catalog} {q : Query} {t : TargetInfo} {c : Code} (h : Plain cat q t)
    (hf : q.filter.isSome = true) (hc : generate q t = some c) (w : World) :
    sentArgs q w c = some ((if q.kind = .update then c.args.map (eval w.field) else []) ++
      (w.filter c.args.length).2) := by
  have hs := h.no_slices hf hc
  have hp : passesParams q c = true := by simp [passesParams, hf]
  rw [sentArgs, buildParams, if_neg (by simp [h.one]), if_neg (by simp [hs]), if_pos hf, Option.map_some,
    if_pos hp, addFilterParams]
  by_cases hk : q.kind = .update
  · rw [if_pos ⟨hf, hk⟩, if_pos hk]
    have hl := h.toBuilt.shape.limits (by simp [hk, QKind.isSelect])
    rw [fallback_none hl.1 hl.2]
  · rw [if_neg (fun hx => hk hx.2), if_neg hk, List.nil_append]

/-- **C67** The arguments of a statement with a filter are its own followed by those of the filter, provided
that it is an update or has none of its own. -/
theorem C67_arguments_partial {cat : Catalog} {q : Query} {t : TargetInfo} {c : Code} (h : Plain cat q t)
    (hf : q.filter.isSome = true) (hc : generate q t = some c) (ha : q.kind = .update ∨ c.args = [])
    (w : World) :
    sentArgs q w c = some (c.args.map (eval w.field) ++ (w.filter c.args.length).2) := by
  rw [sent_filter h hf hc]
  rcases ha with ha | ha
  · rw [if_pos ha]
  · simp [ha]

/-- **C67** Only an update, or a select with a limit field or an offset field, has arguments of its own. -/
theorem C67_own_arguments {cat : Catalog} {q : Query} {t : TargetInfo} {c : Code} (h : Built cat q t)
    (hf : q.filter.isSome = true) (hc : generate q t = some c) (hk : q.kind ≠ .update) :
    c.args = limitArgs q.limit ++ limitArgs q.offset := by
  obtain ⟨_, _, _, _, _, _, _, _, ha, _⟩ := generate_split hc
  have hne : q.filter ≠ none := by cases hx : q.filter <;> simp_all
  have hw : q.wher = none := h.shape.filterOnly hne
  have hi : q.kind ≠ .insert := fun hi => hne (h.shape.insertRows hi).2.2
  have hww := (h.no_writes (by simp [isInsertOrUpdate, hk, hi])).1
  rw [ha, inputArgs, writeArgs, whereArgs, pkeyArgs, hw, hww]
  simp [isUpdateWithPKeys, hk]

/-- **C67** Every parameter of the statement and of the filter is bound to its value: those of the statement
are numbered up to its n arguments, those of the filter from n + 1 on. -/
theorem C67_bound_partial {cat : Catalog} {q : Query} {t : TargetInfo} {c : Code} (h : Plain cat q t)
    (hf : q.filter.isSome = true) (hc : generate q t = some c) (ha : q.kind = .update ∨ c.args = [])
    (w : World) :
    ∃ sent, sentArgs q w c = some sent ∧
      (∀ k : Int, .num k ∈ c.slots → ∃ e, c.args[(k - 1).toNat]? = some e ∧
        sent[(k - 1).toNat]? = some (eval w.field e)) ∧
      (∀ j v, (w.filter c.args.length).2[j]? = some v → sent[c.args.length + j]? = some v) ∧
      sent.length = c.args.length + (w.filter c.args.length).2.length := by
  refine ⟨_, C67_arguments_partial h hf hc ha w, ?_, ?_, by simp⟩
  · intro k hk
    have hb := C39_bound h hc k hk
    have hlt : (k - 1).toNat < c.args.length := by omega
    refine ⟨c.args[(k - 1).toNat], List.getElem?_eq_getElem hlt, ?_⟩
    rw [List.getElem?_append_left (by simpa using hlt), List.getElem?_map, List.getElem?_eq_getElem hlt]
    rfl
  · intro j v hj
    rw [List.getElem?_append_right (by simp)]
    simpa using hj

/-- **C67** The placeholders that the filter writes are those for which its parameters are sent. -/
theorem C67_numbers {α : Type} (cm : List (Bytes × Filter.Column α)) (tscol : Bytes)
    (calls : List (Filter.Call α)) (c : Code) (sql : Bytes) (params : List (Filter.Param α))
    (hcol : ∀ p ∈ Filter.requested cm tscol calls false, p.noDollar)
    (hord : ∀ i ∈ Filter.ordering cm calls false, '$' ∉ i.column)
    (h : Filter.filterSQL cm tscol calls c.args.length = some (sql, params)) :
    ∀ k, k ∈ Filter.placeholders sql ↔ ∃ j, j < params.length ∧ k = c.args.length + j + 1 := by
  intro k
  rw [(Filter.C01_filter_placeholders cm tscol calls c.args.length sql params hcol hord h).1]
  simp only [List.mem_range']
  constructor
  · rintro ⟨j, hj, e⟩; exact ⟨j, hj, by omega⟩
  · rintro ⟨j, hj, e⟩; exact ⟨j, hj, by omega⟩

/-! ### The place of the filter -/

section
variable {α : Type}

def LimitVal.isNone : LimitVal α → Bool
  | .none => true
  | _ => false

/-- The statement has no WHERE clause and nothing that belongs after one, so a WHERE clause can follow; an
EXISTS is still open. -/
def endsBeforeWhere : Stmt α → Bool
  | .insert .. => false
  | .update _ _ _ _ w r => w.isNone && r.isEmpty
  | .select _ _ _ w o l f => w.isNone && o.isEmpty && l.isNone && f.isNone
  | .count _ _ w o f => w.isNone && o.isEmpty && f.isNone
  | .exists_ _ op _ _ w o l f => op && w.isNone && o.isEmpty && l.isNone && f.isNone
  | .delete _ _ w r => w.isNone && r.isEmpty
end

/-- The limit or the offset adds no clause. -/
def adds (l : Option LimitField) : Bool := l.any fun l => l.name.length > 0 || l.value > 0

theorem limitValue_isNone (g : G) (l : LimitField) : (limitValue g l).1.isNone = !adds (some l) := by
  unfold limitValue adds
  by_cases h : l.name.length > 0
  · simp [h, LimitVal.isNone]
  · rw [if_neg h]
    by_cases hv : l.value > 0
    · simp [hv, LimitVal.isNone]
    · simp [hv, h, LimitVal.isNone]

theorem buildOffset_isNone (q : Query) (g : G) : (buildOffset q g).1.isNone = !adds q.offset := by
  unfold buildOffset
  split
  · rename_i h; simp [h, LimitVal.isNone, adds]
  · rename_i h; rw [h, limitValue_isNone]

/-- LIMIT is written: a limit, or a single record without one. -/
def limited (q : Query) : Bool := if q.limit.isNone then isSingle q.rel.type else adds q.limit

theorem buildLimit_isNone (q : Query) (g : G) : (buildLimit q g).1.isNone = !limited q := by
  unfold buildLimit limited
  split
  · rename_i h; simp only [h]; cases isSingle q.rel.type <;> rfl
  · rename_i h; simp only [h]; rw [limitValue_isNone]; rfl

theorem buildOrder_isEmpty (q : Query) : (buildOrder q).isEmpty = (q.orderBy.getD []).isEmpty := by
  simp [buildOrder]

theorem where_none {q : Query} {t : TargetInfo} {cat : Catalog} (h : Built cat q t) (hf : q.filter.isSome = true)
    {g g2 : G} {w : Option (BList Slot)} (hw : buildWhere q t g = some (w, g2)) : w = none := by
  have hne : q.filter ≠ none := by cases hx : q.filter <;> simp_all
  have hq : q.wher = none := h.shape.filterOnly hne
  obtain ⟨c, _, _, _, _, _, _, _, _, _, _, hwh⟩ := checkQuery_ok h.checked
  have ht : t.wher = [] := by
    rw [hq] at hwh
    simp only [Option.map_none, Option.getD_none, checkWhereItems] at hwh
    exact (Res.ok.inj hwh).symm
  unfold buildWhere at hw
  rw [if_neg (by simp [isUpdateWithPKeys, Query.hasWhere, hf]), if_neg (by simp [ht])] at hw
  simp only [Option.some.injEq, Prod.mk.injEq] at hw
  exact hw.1.symm

/-- **C67** The filter follows a statement that a WHERE clause can follow, unless the statement is a select
with ORDER BY, LIMIT (that of a single record included) or OFFSET, or a delete that returns columns. -/
theorem C67_place_partial {cat : Catalog} {q : Query} {t : TargetInfo} {c : Code} (h : Built cat q t)
    (hf : q.filter.isSome = true) (hc : generate q t = some c) :
    endsBeforeWhere c.sql.stmt = true ↔
      (q.kind = .select → (q.orderBy.getD []).isEmpty = true ∧ limited q = false ∧ adds q.offset = false) ∧
      (q.kind = .delete → t.reads = []) := by
  obtain ⟨js, g1, w, g2, _, hw, hst, _⟩ := generate_split hc
  have hne : q.filter ≠ none := by cases hx : q.filter <;> simp_all
  have hfn : q.filter.isNone = false := by cases hx : q.filter <;> simp_all
  have hi : q.kind ≠ .insert := fun hi => hne (h.shape.insertRows hi).2.2
  have hwn := where_none h hf hw
  subst hwn
  have hout : ∀ t : TargetInfo, (outputVals (α := Slot) t).isEmpty = t.reads.isEmpty := by
    intro t; simp [outputVals]
  cases hq : q.kind with
  | insert => exact absurd hq hi
  | update =>
    have hns : q.rel.type.isSlice = false := by
      cases hs : q.rel.type.isSlice with
      | false => rfl
      | true =>
        have hb : Batch cat q t := { toBuilt := h, slice := by simp [isInsertOrUpdateSlice, isInsertOrUpdate, hq, hs] }
        exact absurd hb.rows.2.2 hne
    simp only [buildStmt, hq, buildUpdate, hns, Option.map_eq_some_iff, Bool.false_eq_true, if_false] at hst
    obtain ⟨_, _, hst⟩ := hst
    rw [← hst]
    by_cases hx : (outputVals (α := Slot) t).length > 0
    · rw [if_pos ⟨hf, hx⟩]; simp [endsBeforeWhere]
    · rw [if_neg (fun h => hx h.2)]
      have : (outputVals (α := Slot) t) = [] := List.length_eq_zero_iff.1 (by omega)
      simp [endsBeforeWhere, this]
  | select =>
    simp only [buildStmt, hq, Option.some.injEq] at hst
    rw [← hst]
    simp only [endsBeforeWhere, buildOrder_isEmpty, buildLimit_isNone, buildOffset_isNone]
    simp [and_assoc]
  | selectCount =>
    simp only [buildStmt, hq, Option.some.injEq, buildCount, hfn, Bool.false_eq_true, if_false] at hst
    rw [← hst]
    simp [endsBeforeWhere, LimitVal.isNone]
  | selectExists =>
    simp only [buildStmt, hq, Option.some.injEq, buildExists, hfn, Bool.false_eq_true, if_false] at hst
    rw [← hst]
    simp [endsBeforeWhere, LimitVal.isNone]
  | selectNotExists =>
    simp only [buildStmt, hq, Option.some.injEq, buildExists, hfn, Bool.false_eq_true, if_false] at hst
    rw [← hst]
    simp [endsBeforeWhere, LimitVal.isNone]
  | delete =>
    simp only [buildStmt, hq, buildDelete, Option.map_eq_some_iff] at hst
    obtain ⟨_, _, hst⟩ := hst
    rw [← hst]
    simp only [endsBeforeWhere, hout]
    simp

/-- An EXISTS that is still open. -/
def isOpen {α : Type} : Stmt α → Bool
  | .exists_ _ op .. => op
  | _ => false

/-- **C67** The whole text: the statement, the filter, the parenthesis that an open EXISTS lacks, and the
RETURNING clause of an update. -/
theorem C67_text {cat : Catalog} {q : Query} {t : TargetInfo} {c : Code} (h : Built cat q t)
    (hf : q.filter.isSome = true) (hc : generate q t = some c) (w : World) (main : Bytes) (tail : Option Bytes) :
    filterText w c main tail = main ++ (w.filter c.args.length).1 ++
      (if isOpen c.sql.stmt then b!")" else []) ++ (match tail with | none => [] | some t => b!" " ++ t) ∧
    (tailReturned c.sql.tail = if q.kind = .update then t.reads.map readVal else []) := by
  obtain ⟨js, g1, w', g2, _, hw, hst, _⟩ := generate_split hc
  have hne : q.filter ≠ none := by cases hx : q.filter <;> simp_all
  have hfn : q.filter.isNone = false := by cases hx : q.filter <;> simp_all
  have hi : q.kind ≠ .insert := fun hi => hne (h.shape.insertRows hi).2.2
  have key : c.sql.closeFilter = isOpen c.sql.stmt ∧
      (tailReturned c.sql.tail = if q.kind = .update then t.reads.map readVal else []) := by
    cases hq : q.kind with
    | insert => exact absurd hq hi
    | update =>
      have hns : q.rel.type.isSlice = false := by
        cases hs : q.rel.type.isSlice with
        | false => rfl
        | true =>
          have hb : Batch cat q t := { toBuilt := h, slice := by simp [isInsertOrUpdateSlice, isInsertOrUpdate, hq, hs] }
          exact absurd hb.rows.2.2 hne
      simp only [buildStmt, hq, buildUpdate, hns, Option.map_eq_some_iff, Bool.false_eq_true, if_false] at hst
      obtain ⟨_, _, hst⟩ := hst
      rw [← hst]
      by_cases hx : (outputVals (α := Slot) t).length > 0
      · rw [if_pos ⟨hf, hx⟩]; exact ⟨rfl, rfl⟩
      · rw [if_neg (fun h => hx h.2)]
        have : t.reads = [] := List.length_eq_zero_iff.1 (by simpa [outputVals] using hx)
        refine ⟨rfl, ?_⟩
        simp [tailReturned, this]
    | select =>
      simp only [buildStmt, hq, Option.some.injEq] at hst
      rw [← hst]; exact ⟨rfl, rfl⟩
    | selectCount =>
      simp only [buildStmt, hq, Option.some.injEq, buildCount, hfn, Bool.false_eq_true, if_false] at hst
      rw [← hst]; exact ⟨rfl, rfl⟩
    | selectExists =>
      simp only [buildStmt, hq, Option.some.injEq, buildExists, hfn, Bool.false_eq_true, if_false] at hst
      rw [← hst]; exact ⟨rfl, rfl⟩
    | selectNotExists =>
      simp only [buildStmt, hq, Option.some.injEq, buildExists, hfn, Bool.false_eq_true, if_false] at hst
      rw [← hst]; exact ⟨rfl, rfl⟩
    | delete =>
      simp only [buildStmt, hq, buildDelete, Option.map_eq_some_iff] at hst
      obtain ⟨_, _, hst⟩ := hst
      rw [← hst]; exact ⟨rfl, rfl⟩
  refine ⟨?_, key.2⟩
  cases tail <;> simp only [filterText, key.1]

end Verif.Generator
