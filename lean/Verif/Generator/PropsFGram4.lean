import Verif.Generator.PropsFGram3
import Verif.Generator.PropsFiltered2
import Verif.Generator.PropsGram10

/- Property C90: examples and counterexamples. -/
namespace Verif.Generator.Gram
open Verif.Analysis Verif.Postgres Verif.Generator.Lex Print

instance (x : Bytes) : Decidable (ColText x) := by unfold ColText; infer_instance

/-- A filter on which the calls were made. -/
def callWorld (calls : List (Filter.Call Nat)) : World where
  field := fun _ => .nil
  filter n := (((Filter.filterSQL [(b!"k", { name := b!"u.\"name\"" })] [] calls n).map (·.1)).getD [], [])

/-- The statement with the filter. -/
def filteredText (w : World) (c : Code) : Bytes :=
  let f := fun a => (Generator.slotText w c a).getD []
  filterText w c (stmtText f c.sql.stmt) (tailText f c.sql.tail)

/-- All kinds of conditions, with groups, and an order, a limit and an offset. -/
def exCalls : List (Filter.Call Nat) :=
  [.col b!"u.\"id\"" b!">" (.other 1), .or, .colIn b!"u.\"id\"" [2, 3],
   .orNest [.col b!"u.\"name\"" b!"NOT LIKE" (.other 4), .col b!"u.\"id\"" b!"=" .nil],
   .colAny b!"u.\"id\"" .int [5], .orderByV2 b!"u.\"id\"" true false false, .unmarshalSort b!"k", .limit 7, .offset 8]

def exConds : List (Filter.Call Nat) := exCalls.take 5

/-- What `exConds` means, with `n` parameters before it. -/
def exMeant (a b c d e : Bytes) : Ex :=
  .or (.or (.op b!">" (exCol b!"u" b!"id") (.const (.param a)))
      (.isIn false (exCol b!"u" b!"id") [.const (.param b), .const (.param c)]))
    (.and
      (.and (.like true b!"like" (exCol b!"u" b!"name") (.const (.param d))) (.is false b!"null" (exCol b!"u" b!"id")))
      (.quant [.op b!"="] b!"any" (exCol b!"u" b!"id")
        (.cast (.const (.param e)) (lex (Filter.arrayTypeName .int)))))

/-- An accepted query with a filter that meets the requirements, and the tree that its statement is parsed as. -/
theorem C90_example : Meets litCat b!"SelectUsers" [relFld (.slice userTy), filterFld] (callWorld exCalls) fun q _ c =>
    decide (q.filter.isSome = true ∧ parse (lex (filteredText (callWorld exCalls) c)) = some
      (.select
        { cols := [exCol b!"u" b!"id", .call b!"coalesce" [exCol b!"u" b!"name", .cast (.const (.str [])) [.word b!"text"]]]
          rel := ⟨[.name b!"users"], some (.word b!"u")⟩
          joins := []
          wher := some (exMeant b!"1" b!"2" b!"3" b!"4" b!"5")
          order := [⟨exCol b!"u" b!"id", true, true⟩, ⟨exCol b!"u" b!"name", false, false⟩]
          limit := some (.const (.num b!"7"))
          offset := some (.const (.num b!"8")) })) :=
  Meets.of (by decide +kernel) (by decide +kernel)

/-- An update of one record with a filter; its own parameters are $1 and $2. -/
theorem C90_example_update : Meets litCat b!"UpdateUser" [relFld (.ptr userTy), filterFld] (callWorld exConds) fun q _ c =>
    decide (q.filter.isSome = true ∧ parse (lex (filteredText (callWorld exConds) c)) = some
      (.update ⟨[.name b!"users"], some (.word b!"u")⟩ [.name b!"id", .name b!"name"]
        [.const (.param b!"1"), .cast (.call b!"nullif" [.const (.param b!"2"), .const (.str [])]) [.word b!"text"]] .none
        (some (exMeant b!"3" b!"4" b!"5" b!"6" b!"7")) [])) :=
  Meets.of (by decide +kernel) (by decide +kernel)

/-- The calls are as `C90_filtered` requires them. -/
theorem C90_example_calls : Filter.Proper [] exCalls ∧ CallsPlain exCalls ∧ Filter.fqlRuns exCalls false = [] ∧
    ((Filter.requested [(b!"k", { name := b!"u.\"name\"" })] [] exCalls false).all fun x => decide (PredGram x)) = true ∧
    ((Filter.ordering [(b!"k", { name := b!"u.\"name\"" })] exCalls false).all fun i => decide (ColText i.column)) = true ∧
    (exCalls.length = 9 ∧ Filter.ordering [(b!"k", ({ name := b!"u.\"name\"" } : Filter.Column Nat))] exConds false = []) := by
  refine ⟨?_, ?_, by decide, by decide +kernel, by decide +kernel, by decide⟩
  · simp [exCalls, Filter.Proper, Filter.Call.Proper, Filter.Call.bare, Filter.Call.adds, Filter.colPred]
    exact Or.inl (by decide)
  · simp only [exCalls, CallsPlain, CallPlain]
    decide +kernel

/-- The condition of what the calls ask for is the one of the examples. -/
theorem C90_example_meant : MeantWhere 2 (Filter.joined (Filter.asked [] [] exConds none))
    (some (exMeant b!"3" b!"4" b!"5" b!"6" b!"7")) := by
  have h : Filter.joined (Filter.asked [] [] exConds none) =
      ([.pred ⟨b!"u.\"id\"", .cmp b!">" (.other 1)⟩] ++ .or :: [.pred ⟨b!"u.\"id\"", .isIn [2, 3]⟩]) ++ .or ::
      ((.opn :: ([.pred ⟨b!"u.\"name\"", .cmp b!"NOT LIKE" (.other 4)⟩] ++ .and :: [.pred ⟨b!"u.\"id\"", .is b!"IS NULL"⟩]) ++
        [.cls]) ++ .and :: [.pred ⟨b!"u.\"id\"", .anyOf .int [5]⟩]) := by rfl
  rw [h]
  exact .some (.or (.or (.conj (.fact (.pred (by decide)))) (.fact (.pred (by decide))))
    (.and (.fact (.paren (.conj (.and (.fact (.pred (by decide +kernel))) (.pred (by decide +kernel))))))
      (.pred (by decide +kernel))))

/-! ### Statements that are refused, or mean something else -/

/-- The statement of the accepted query has no place in the grammar if these calls are made on its filter. -/
def RefusedWith (n : Bytes) (fs : List Analysis.Field) (calls : List (Filter.Call Nat)) : Prop :=
  ∃ q t c, pipeline env0 shopCat n fs = some (q, t, some c) ∧ q.filter.isSome = true ∧
    Whole (filteredText (callWorld calls) c) ∧ parse (lex (filteredText (callWorld calls) c)) = none

theorem RefusedWith.of {n : Bytes} {fs : List Analysis.Field} {calls : List (Filter.Call Nat)}
    (h : (pipeline env0 shopCat n fs).any (fun x => x.2.2.any fun c => x.1.filter.isSome &&
      decide (Whole (filteredText (callWorld calls) c)) &&
      (parse (lex (filteredText (callWorld calls) c))).isNone) = true) : RefusedWith n fs calls := by
  obtain ⟨⟨q, t, g⟩, hx, hp⟩ := (Option.any_eq_true _ _).1 h
  obtain ⟨c, hc, hp⟩ := (Option.any_eq_true _ _).1 hp
  simp only [Bool.and_eq_true, decide_eq_true_eq, Option.isNone_iff_eq_none] at hp
  simp only at hc
  exact ⟨q, t, c, hc ▸ hx, hp.1.1, hp.1.2, hp.2⟩

def idCall : Filter.Call Nat := .col b!"u.\"id\"" b!">" (.other 1)

/-- **C90** A filter with an order or a limit is refused by PostgreSQL in an UPDATE and in a DELETE. -/
theorem C90_not_sortable :
    RefusedWith b!"UpdateUser" [relFld (.ptr userTy), filterFld] [idCall, .limit 1] ∧
    RefusedWith b!"DeleteUsers" [relFld (.slice userTy), filterFld] [idCall, .limit 1] ∧
    RefusedWith b!"DeleteUsers" [relFld (.slice userTy), filterFld] [idCall, .orderBy b!"u.\"id\"" false false] ∧
    RefusedWith b!"DeleteUsers" [relFld (.slice userTy), filterFld] [idCall, .offset 1] :=
  ⟨RefusedWith.of (by decide +kernel), RefusedWith.of (by decide +kernel), RefusedWith.of (by decide +kernel),
    RefusedWith.of (by decide +kernel)⟩

/-- **C90** A filter with a condition is refused in a select of one record (after its LIMIT), in a select with an
order, and in a delete that returns columns. -/
theorem C90_not_place :
    RefusedWith b!"SelectUser" [relFld (.ptr userTy), filterFld] [idCall] ∧
    RefusedWith b!"SelectUsers" [relFld (.slice userTy), filterFld, dirFld b!"OrderBy" [b!"u.name"]] [idCall] ∧
    RefusedWith b!"DeleteUsers" [relFld (.slice userTy), filterFld, returnFld] [idCall] :=
  ⟨RefusedWith.of (by decide +kernel), RefusedWith.of (by decide +kernel), RefusedWith.of (by decide +kernel)⟩

/-- **C90** Outside the usage rules of C04, or with an empty IN list, the statement is refused. -/
theorem C90_not_usage :
    RefusedWith b!"SelectUsers" [relFld (.slice userTy), filterFld] [idCall, .or] ∧
    RefusedWith b!"SelectUsers" [relFld (.slice userTy), filterFld] [.andNest []] ∧
    RefusedWith b!"SelectUsers" [relFld (.slice userTy), filterFld] [idCall, .col b!"u.\"id\"" b!">" .nil] ∧
    RefusedWith b!"SelectUsers" [relFld (.slice userTy), filterFld] [.colIn b!"u.\"id\"" []] :=
  ⟨RefusedWith.of (by decide +kernel), RefusedWith.of (by decide +kernel), RefusedWith.of (by decide +kernel),
    RefusedWith.of (by decide +kernel)⟩

/-- **C90** What UnmarshalFQL adds is not grouped (see C91): this select of the rows with an id above 1 selects, for the
given FQL, all the rows with the name $3, whatever their id. -/
theorem C90_not_fql_grouped : ∃ q t c, Built shopCat q t ∧ generate q t = some c ∧
    condOf (parse (lex (filteredText (callWorld [idCall,
      .unmarshalFQL [.rule b!"k" .eq (some (.other 2)), .or, .rule b!"k" .eq (some (.other 3))] none]) c))) = some
      (.or
        (.and (.op b!">" (exCol b!"u" b!"id") (.const (.param b!"1")))
          (.op b!"=" (exCol b!"u" b!"name") (.const (.param b!"2"))))
        (.op b!"=" (exCol b!"u" b!"name") (.const (.param b!"3")))) := by
  obtain ⟨q, t, c, hb, hc, hp⟩ := code_of (env := env0) (cat := shopCat) (n := b!"SelectUsers")
    (fs := [relFld (.slice userTy), filterFld])
    (P := fun _ _ c => decide (condOf (parse (lex (filteredText (callWorld [idCall,
      .unmarshalFQL [.rule b!"k" .eq (some (.other 2)), .or, .rule b!"k" .eq (some (.other 3))] none]) c))) = some
      (.or
        (.and (.op b!">" (exCol b!"u" b!"id") (.const (.param b!"1")))
          (.op b!"=" (exCol b!"u" b!"name") (.const (.param b!"2"))))
        (.op b!"=" (exCol b!"u" b!"name") (.const (.param b!"3")))))) (by decide +kernel)
  exact ⟨q, t, c, hb, hc, of_decide_eq_true hp⟩

/-- **C90** The operator of `Col` is put into the statement as it is: with one that is no operator, the condition
means something else. -/
theorem C90_not_operator : ∃ q t c, Built shopCat q t ∧ generate q t = some c ∧
    condOf (parse (lex (filteredText (callWorld [.col b!"u.\"id\"" b!"= 1 OR 1 =" (.other 1)]) c))) = some
      (.or (.op b!"=" (exCol b!"u" b!"id") (.const (.num b!"1"))) (.op b!"=" (.const (.num b!"1")) (.const (.param b!"1")))) := by
  obtain ⟨q, t, c, hb, hc, hp⟩ := code_of (env := env0) (cat := shopCat) (n := b!"SelectUsers")
    (fs := [relFld (.slice userTy), filterFld])
    (P := fun _ _ c => decide (condOf (parse (lex (filteredText (callWorld
        [.col b!"u.\"id\"" b!"= 1 OR 1 =" (.other 1)]) c))) = some
      (.or (.op b!"=" (exCol b!"u" b!"id") (.const (.num b!"1"))) (.op b!"=" (.const (.num b!"1")) (.const (.param b!"1"))))))
    (by decide +kernel)
  exact ⟨q, t, c, hb, hc, of_decide_eq_true hp⟩

end Verif.Generator.Gram
