import Verif.Generator.Scope
import Verif.Generator.Pipeline
import Verif.Generator.LemmasCover
import Verif.Generator.PropsLex2
import Verif.Analysis.PropsScope

/- Property C105: the columns of a generated statement are those that the checker found. -/
namespace Verif.Generator.Names
open Verif.Analysis Verif.Postgres

/-! ### The columns of what the checker returns -/

def rhsCols : Rhs → List ColIdent
  | .column c => [c]
  | _ => []

def boundCols : RangeBound → List ColIdent
  | .column c => [rhsCol c.rhs]
  | .field _ => []

def colCondCols (c : ColumnConditional) : List ColIdent :=
  c.lhs :: (if predIs Pred.isUnary c.pred then [] else rhsCols c.rhs)

mutual
def condCols : Cond → List ColIdent
  | .bool _ => []
  | .nested _ l => condsCols l
  | .field f => [f.colIdent]
  | .column c => colCondCols c
  | .between b => b.colIdent :: boundCols b.lower ++ boundCols b.upper
def condsCols : List Cond → List ColIdent
  | [] => []
  | c :: cs => condCols c ++ condsCols cs
end

/-! ### The generator adds no columns -/

section
variable {α : Type}

theorem addCoalesce_cols {x : VExpr α} {v : Bytes} {c : Column} : (addCoalesce x v c).cols = x.cols := by
  unfold addCoalesce
  split
  · simp [VExpr.cols, emptyLit]
  · split
    · simp [VExpr.cols, emptyLit]
    · split <;> simp [VExpr.cols, emptyLit]

theorem addNullif_cols {x : VExpr α} {c : Column} : (addNullif x c).cols = x.cols := by
  unfold addNullif
  split
  · unfold textUnlessParam
    split <;> simp [VExpr.cols, emptyLit]
  · split <;> simp [VExpr.cols, emptyLit]

theorem addCall_cols {fn : Bytes} {x : VExpr α} : (addCall fn x).cols = x.cols := by
  unfold addCall
  split <;> simp [VExpr.cols]

theorem addQuant_cols {q : Option Quant} {t : Bytes} {x : VExpr α} : (addQuant q t x).cols = x.cols := by
  unfold addQuant
  split
  · rfl
  · split <;> simp [VExpr.cols]

theorem rhsExpr_cols {r : Rhs} : ∀ c ∈ (rhsExpr (α := α) r).cols, c ∈ rhsCols r := by
  intro c hc
  cases r with
  | none => simp [rhsExpr, VExpr.cols] at hc
  | column x =>
    simp only [rhsExpr] at hc
    split at hc
    · simp [VExpr.cols] at hc
    · simpa [rhsCols, VExpr.cols] using hc
  | literal s =>
    simp only [rhsExpr] at hc
    split at hc <;> simp [VExpr.cols] at hc

theorem readVal_cols {r : FieldRead} : (readVal (α := α) r).cols = [r.colIdent] := by
  unfold readVal
  split
  · rw [addCoalesce_cols]; rfl
  · rfl

theorem outputVals_cols {t : TargetInfo} : (outputVals (α := α) t).flatMap VExpr.cols = t.reads.map (·.colIdent) := by
  unfold outputVals
  induction t.reads with
  | nil => rfl
  | cons r rs ih => simp [readVal_cols, ih]

end

theorem writeVal_cols {q : Query} {g : G} {w : FieldWrite} : (writeVal q g w).1.cols = [] := by
  unfold writeVal
  split
  · rfl
  · simp only
    split
    · rw [addNullif_cols]; rfl
    · split <;> rfl

theorem mapSt_cols {β : Type} {g : G → β → VExpr Slot × G} (h : ∀ s x, (g s x).1.cols = []) : ∀ (xs : List β) (s : G),
    (mapSt g s xs).1.flatMap VExpr.cols = []
  | [], s => by simp [mapSt]
  | x :: xs, s => by
    have := mapSt_cols h xs (g s x).2
    simp only [mapSt, List.flatMap_cons, h, List.nil_append]
    exact this

theorem targetValues_cols {q : Query} {t : TargetInfo} : (targetValues q t).vals.flatMap VExpr.cols = [] := by
  unfold targetValues
  simp only
  split <;> exact mapSt_cols (fun _ _ => writeVal_cols) _ _

theorem updateCols_cols {α : Type} {q : Query} {t : TargetInfo} : (updateCols (α := α) q t).flatMap VExpr.cols = [] := by
  unfold updateCols
  generalize t.writes.filter _ = l
  induction l with
  | nil => rfl
  | cons w ws ih => simp [VExpr.cols, ih]

theorem binary_of_unary {p : Option Pred} (h : predIs Pred.isUnary p = true) : ∀ op, predForm p ≠ .binary op := by
  intro op
  cases p with
  | none => cases h
  | some p => cases p <;> first | (simp [predForm]; done) | cases h

theorem predExpr_cols {sx : GoExpr} {n : Bytes} {g : G} {p : Option Pred} {l r : VExpr Slot} {c : ColIdent}
    (hc : c ∈ (predExpr sx n g p l r).1.cols) : c ∈ l.cols ∨ (predIs Pred.isUnary p = false ∧ c ∈ r.cols) := by
  unfold predExpr at hc
  simp only at hc
  cases hf : predForm p with
  | binary op =>
    rw [hf] at hc
    simp only [formExpr, BExpr.cols, List.mem_append] at hc
    rcases hc with hc | hc
    · exact .inl hc
    · refine .inr ⟨?_, hc⟩
      cases hu : predIs Pred.isUnary p with
      | false => rfl
      | true => exact absurd hf (binary_of_unary hu op)
  | inList b => rw [hf] at hc; simp only [formExpr, BExpr.cols] at hc; exact .inl hc
  | truth b t => rw [hf] at hc; simp only [formExpr, BExpr.cols] at hc; exact .inl hc
  | null b => rw [hf] at hc; simp only [formExpr, BExpr.cols] at hc; exact .inl hc
  | bare => rw [hf] at hc; simp only [formExpr, BExpr.cols] at hc; exact .inl hc

theorem boundExpr_cols {g : G} {b : RangeBound} : (boundExpr g b).1.cols = boundCols b := by
  cases b <;> rfl

theorem addItem_cols {α : Type} {first : Bool} {b : Option Bool} {x : BExpr α} {rest : BList α} {c : ColIdent}
    (h : c ∈ (addItem first b x rest).cols) : c ∈ x.cols ∨ c ∈ rest.cols := by
  unfold addItem at h
  split at h
  · simpa [BList.cols] using h
  · split at h
    · simpa [BList.cols] using h
    · simpa [BList.cols] using h
    · exact .inr h

mutual
theorem condExpr_cols : ∀ (k : Cond) (sx : GoExpr) (g : G) (c : ColIdent), c ∈ (condExpr sx g k).1.cols →
    c ∈ condCols k
  | .bool _, sx, g, c, h => by simp [condExpr, BExpr.cols, VExpr.cols] at h
  | .nested n items, sx, g, c, h => by
    simp only [condExpr, BExpr.cols] at h
    rw [condCols]
    exact condList_cols items _ _ _ _ c h
  | .field f, sx, g, c, h => by
    rw [condExpr, fieldExpr] at h
    rw [condCols]
    rcases predExpr_cols h with h | ⟨_, h⟩
    · rw [addCall_cols] at h; simpa [VExpr.cols] using h
    · rw [addQuant_cols, addCall_cols] at h; simp [VExpr.cols] at h
  | .column k, sx, g, c, h => by
    rw [condExpr, columnExpr] at h
    rw [condCols, colCondCols]
    rcases predExpr_cols h with h | ⟨hu, h⟩
    · simp only [VExpr.cols, List.mem_singleton] at h
      subst h
      exact List.mem_cons_self ..
    · rw [addQuant_cols] at h
      rw [hu]
      exact List.mem_cons_of_mem _ (rhsExpr_cols c h)
  | .between b, sx, g, c, h => by
    simp only [condExpr, betweenExpr, BExpr.cols, VExpr.cols, boundExpr_cols] at h
    rw [condCols]
    simpa using h
theorem condList_cols : ∀ (cs : List Cond) (sx : GoExpr) (g : G) (first : Bool) (b : Option Bool) (c : ColIdent),
    c ∈ (condList sx g first b cs).1.cols → c ∈ condsCols cs
  | [], sx, g, first, b, c, h => by simp [condList, BList.cols] at h
  | k :: cs, sx, g, first, b, c, h => by
    rw [condList] at h
    rw [condsCols, List.mem_append]
    split at h
    · exact .inr (condList_cols cs _ _ _ _ c h)
    · rcases addItem_cols h with h | h
      · exact .inl (condExpr_cols k _ _ c h)
      · exact .inr (condList_cols cs _ _ _ _ c h)
end

theorem pkeyConds_cols : ∀ (ws : List FieldWrite) (b : Bool) (g : G) (first : Bool) (c : ColIdent),
    c ∈ (pkeyConds b g first ws).1.cols → c ∈ ws.map (·.colIdent)
  | [], b, g, first, c, h => by simp [pkeyConds, BList.cols] at h
  | w :: ws, b, g, first, c, h => by
    simp only [pkeyConds, BList.cols, BExpr.cols, VExpr.cols, List.mem_append, List.mem_singleton] at h
    rw [List.map_cons, List.mem_cons]
    rcases h with (h | h) | h
    · exact .inl h
    · cases b <;> simp [VExpr.cols] at h
    · exact .inr (pkeyConds_cols ws _ _ _ c h)

theorem buildWhere_cols {q : Query} {t : TargetInfo} {g g' : G} {w : Option (BList Slot)}
    (h : buildWhere q t g = some (w, g')) : ∀ c ∈ whereCols w, c ∈ t.pkeys.map (·.colIdent) ∨ c ∈ condsCols t.wher := by
  unfold buildWhere at h
  split at h
  · cases h
    intro c hc
    exact .inl (pkeyConds_cols _ _ _ _ c hc)
  · split at h
    · split at h
      · cases h
      · cases h
        intro c hc
        exact .inr (condList_cols _ _ _ _ _ c hc)
    · cases h
      intro c hc
      simp [whereCols] at hc

/-- The joins of the statement: the relations of the directives, with the conditions that were checked. -/
inductive JoinsFrom : List (TableJoin Slot) → List JoinDir → List (List JoinCond) → Prop
  | nil (cs) : JoinsFrom [] [] cs
  | cons {j js d ds l cs} : j.rel = d.relIdent → (∀ c ∈ j.cond.cols, c ∈ condsCols (l.map joinCond)) →
      JoinsFrom js ds cs → JoinsFrom (j :: js) (d :: ds) (l :: cs)

theorem tableJoins_from : ∀ (ds : List JoinDir) (cs : List (List JoinCond)) (g : G)
    (r : List (TableJoin Slot) × G), tableJoins g ds cs = some r → JoinsFrom r.1 ds cs
  | [], cs, g, r, h => by simp only [tableJoins, Option.some.injEq] at h; subst h; exact .nil _
  | d :: ds, [], g, r, h => by simp [tableJoins] at h
  | d :: ds, c :: cs, g, r, h => by
    simp only [tableJoins, Option.map_eq_some_iff] at h
    obtain ⟨r', h, rfl⟩ := h
    exact .cons rfl (fun c hc => condList_cols _ _ _ _ _ c hc) (tableJoins_from ds cs _ _ h)

end Verif.Generator.Names
