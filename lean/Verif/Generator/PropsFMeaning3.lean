import Verif.Generator.PropsFMeaning2
import Verif.Generator.PropsFGram4

/-
C93: cases.
-/
namespace Verif.Generator.Gram
open Verif.Analysis Verif.Postgres Verif.Generator.Lex Print

/-- A row with two columns of numbers, the second of which may be null. -/
def exRow (id : Nat) (name : Option Nat) : FRow Nat (Option Nat) where
  col := fun ts => if ts = [.word b!"u", .name b!"id"] then some id else name
  sent := fun p => match p with | .val (.other v) => some v | .elem v => some v | _ => none
  op := fun o x y => x.bind fun x => y.bind fun y =>
    if o = [.op b!"="] then some (x == y) else if o = [.op b!">"] then some (decide (x > y)) else none
  is := fun o x => if o = [.word b!"is", .word b!"null"] then some x.isNone else none
  anyEq := fun _ _ => none
  cast := fun _ x => x
  tsquery := fun x => x

/-- `id > 1 AND (name = 2 OR name IS NULL) OR id IN (7, 8)`. -/
def exAsk : List (Filter.Call Nat) :=
  [idCall, .andNest [.col b!"u.\"name\"" b!"=" (.other 2), .or, .col b!"u.\"name\"" b!"=" .nil], .or, .colIn b!"u.\"id\"" [7, 8]]

theorem C93_example :
    (callsNoFql exAsk = true ∧ Filter.Proper [] exAsk ∧ (Filter.requested [] [] exAsk false).length = 4) ∧
    seqVal (callVals (exRow 5 (some 2)) [] exAsk none) = some true ∧
    seqVal (callVals (exRow 5 none) [] exAsk none) = some true ∧
    seqVal (callVals (exRow 5 (some 3)) [] exAsk none) = some false ∧
    seqVal (callVals (exRow 8 (some 3)) [] exAsk none) = some true ∧
    seqVal (callVals (exRow 1 none) [] exAsk none) = some false ∧
    seqVal (callVals (exRow 5 none) [] [.col b!"u.\"name\"" b!"=" (.other 2)] none) = none := by
  refine ⟨⟨by decide, ?_, by decide⟩, by decide +kernel, by decide +kernel, by decide +kernel, by decide +kernel,
    by decide +kernel, by decide +kernel⟩
  simp [exAsk, idCall, Filter.Proper, Filter.Call.Proper, Filter.Call.bare, Filter.Call.adds, Filter.colPred]
  decide

/-- The same for the tree that is read: the statement of the query with this filter, whose one parameter comes first. -/
theorem C93_example_tree : exHolds (exRow 5 none) [none, some 1, some 2, some 7, some 8]
      (.or (.and (.op b!">" (exCol b!"u" b!"id") (.const (.param b!"2")))
          (.or (.op b!"=" (exCol b!"u" b!"name") (.const (.param b!"3"))) (.is false b!"null" (exCol b!"u" b!"name"))))
        (.isIn false (exCol b!"u" b!"id") [.const (.param b!"4"), .const (.param b!"5")])) = some (some true) ∧
    MeantWhere 1 (Filter.joined (Filter.asked [] [] exAsk none)) (some
      (.or (.and (.op b!">" (exCol b!"u" b!"id") (.const (.param b!"2")))
          (.or (.op b!"=" (exCol b!"u" b!"name") (.const (.param b!"3"))) (.is false b!"null" (exCol b!"u" b!"name"))))
        (.isIn false (exCol b!"u" b!"id") [.const (.param b!"4"), .const (.param b!"5")]))) := by
  refine ⟨by decide +kernel, ?_⟩
  have h : Filter.joined (Filter.asked [] [] exAsk none) =
      ([.pred ⟨b!"u.\"id\"", .cmp b!">" (.other 1)⟩] ++ .and ::
        (.opn :: ([.pred ⟨b!"u.\"name\"", .cmp b!"=" (.other 2)⟩] ++ .or :: [.pred ⟨b!"u.\"name\"", .is b!"IS NULL"⟩]) ++
          [.cls])) ++ .or :: [.pred ⟨b!"u.\"id\"", .isIn [7, 8]⟩] := by rfl
  rw [h]
  exact .some (.or (.conj (.and (.fact (.pred (by decide +kernel)))
    (.paren (.or (.conj (.fact (.pred (by decide +kernel)))) (.fact (.pred (by decide +kernel))))))) (.fact (.pred (by decide +kernel))))

/-- The rules `k = 2 OR k = 3`, as FQL. -/
def exFql : Filter.Call Nat := .unmarshalFQL [.rule b!"k" .eq (some (.other 2)), .or, .rule b!"k" .eq (some (.other 3))] none

def exMap : List (Bytes × Filter.Column Nat) := [(b!"k", { name := b!"u.\"name\"" })]

/-- In a group the FQL cannot widen the condition: an instance of `C93_guard`. -/
theorem C93_example_guard :
    (∀ x ∈ [idCall, Filter.Call.andNest [exFql]], AndOnly x) ∧ Filter.Proper [] [idCall, .andNest [exFql]] ∧
    (∀ r ∈ Filter.fqlRuns [idCall, .andNest [exFql]] false, ∃ s, Filter.TokExpr exMap r.2 s) ∧
    idCall.asks exMap [] = some [.pred ⟨b!"u.\"id\"", .cmp b!">" (.other 1)⟩] ∧
    Says (exRow 5 (some 3)) .disj (Filter.joined (Filter.asked exMap [] [idCall, .andNest [exFql]] none)) (some true) ∧
    Says (exRow 1 (some 3)) .disj (Filter.joined (Filter.asked exMap [] [idCall, .andNest [exFql]] none)) (some false) := by
  have h : Filter.joined (Filter.asked exMap [] [idCall, .andNest [exFql]] none) =
      [.pred ⟨b!"u.\"id\"", .cmp b!">" (.other 1)⟩] ++ .and ::
        (.opn :: ([.pred ⟨b!"u.\"name\"", .cmp b!"=" (.other 2)⟩] ++ .or :: [.pred ⟨b!"u.\"name\"", .cmp b!"=" (.other 3)⟩]) ++
          [.cls]) := by rfl
  refine ⟨by simp [AndOnly, idCall], ?_, ?_, rfl, ?_, ?_⟩
  · simp [exFql, idCall, Filter.Proper, Filter.Call.Proper, Filter.Call.bare, Filter.Call.adds]
  · intro r hr
    have : r = (false, [.rule b!"k" .eq (some (.other 2)), .or, .rule b!"k" .eq (some (.other 3))]) := by
      simpa [exFql, idCall, Filter.fqlRuns, Filter.Call.fqlRuns, Filter.Call.fqlRunsAt, Filter.Call.strictAfter] using hr
    subst this
    exact ⟨_, .or (a := [.rule b!"k" .eq (some (.other 2))]) (.rule rfl) (.rule rfl)⟩
  · rw [h]
    exact .conj (.and (.fact (.pred _)) (.paren (.or (.conj (.fact (.pred _))) (.fact (.pred _)))))
  · rw [h]
    exact .conj (.and (.fact (.pred _)) (.paren (.or (.conj (.fact (.pred _))) (.fact (.pred _)))))

/-- **C93** Outside of a group FQL can widen the condition: a row is selected that does not satisfy the condition with
which the program began. -/
theorem C93_not_guarded :
    Says (exRow 1 (some 3)) .disj (Filter.joined (Filter.asked exMap [] [idCall, exFql] none)) (some true) ∧
    Filter.Proper [] [idCall, exFql] ∧
    idCall.asks exMap [] = some [.pred ⟨b!"u.\"id\"", .cmp b!">" (.other 1)⟩] ∧
    predHolds (exRow 1 (some 3)) ⟨b!"u.\"id\"", .cmp b!">" (.other 1)⟩ = some false := by
  refine ⟨?_, ?_, rfl, by decide +kernel⟩
  · have h : Filter.joined (Filter.asked exMap [] [idCall, exFql] none) =
      ([.pred ⟨b!"u.\"id\"", .cmp b!">" (.other 1)⟩] ++ .and :: [.pred ⟨b!"u.\"name\"", .cmp b!"=" (.other 2)⟩]) ++ .or ::
        [.pred ⟨b!"u.\"name\"", .cmp b!"=" (.other 3)⟩] := by rfl
    rw [h]
    exact .or (.conj (.and (.fact (.pred _)) (.pred _))) (.fact (.pred _))
  · simp [exFql, idCall, Filter.Proper, Filter.Call.Proper, Filter.Call.bare]

end Verif.Generator.Gram
