import Verif.Generator.PropsFilterDb4
import Verif.Generator.PropsTreeDb4

/- Property C96: examples. -/
namespace Verif.Generator.Gram
open Verif.Analysis Verif.Postgres Verif.Generator.Lex Print

/-- What is sent for a value of the filter. -/
def asSent : Filter.Param Bytes → Val
  | .val (.other v) => .data v
  | .elem v => .data v
  | .text s => .data s
  | _ => .nil

/-- What the database gets for it. -/
def asGiven (p : Filter.Param Bytes) : Option Bytes := asValue (asSent p)

/-- The fields have the values that the example says, and on the filter the calls were made. -/
def filterWorld (id name : Bytes) (calls : List (Filter.Call Bytes)) : World :=
  { shopWorld id name with
    filter := fun n =>
      match Filter.filterSQL [] [] calls n with
      | some (s, ps) => (s, ps.map asSent)
      | none => ([], []) }

/-- The hypotheses about the query that can be decided. -/
def filteredCheck (w : World) (field : Generator.Fields Bytes) (calls : List (Filter.Call Bytes)) (q : Query) (t : TargetInfo)
    (c : Code) (args : List Val) : Bool :=
  plainCheck q t && toldCheck q && spelled c.sql.stmt && ((tailVals c.sql.tail).flatMap valParts).all plainPart &&
    q.filter.isSome &&
    decide (sentArgs q w c = some args ∧ args.length ≤ 65535 ∧
      c.args.map (fun e => field (goPath e)) = (args.map asValue).take c.args.length ∧ c.g.slices.length = 0 ∧
      (q.kind = .update ∨ c.args.length = 0) ∧ (Filter.filterSQL [] [] calls c.args.length).isSome = true ∧
      (q.kind = .select → (q.orderBy.getD []).isEmpty = true ∧ limited q = false ∧ adds q.offset = false) ∧
      (q.kind = .delete → t.reads.length = 0) ∧
      (q.kind = .update ∨ q.kind = .delete → (Filter.ordering (α := Bytes) [] calls false).length = 0 ∧
        Filter.lastPositive (Filter.limitArgs calls) = none ∧ Filter.lastPositive (Filter.offsetArgs calls) = none))

/-- The hypotheses about the calls. -/
structure Callable (calls : List (Filter.Call Bytes)) : Prop where
  called : CallsPlain calls
  proper : Filter.Proper [] calls
  noFql : callsNoFql calls = true
  fql : Filter.fqlRuns calls false = []
  preds : ((Filter.requested [] [] calls false).all fun x => decide (PredGram x)) = true
  orders : ((Filter.ordering (α := Bytes) [] calls false).all fun i => decide (ColText i.column)) = true
  pages : ∀ n, Filter.Call.page n ∉ Filter.flatCalls calls

theorem SentFiltered.of {cat : Catalog} {n : Bytes} {fs : List Analysis.Field} {id name : Bytes}
    {calls : List (Filter.Call Bytes)} {args : List Val} {P : Query → TargetInfo → Code → Bool} (hcall : Callable calls)
    (h : Meets cat n fs (filterWorld id name calls) fun q t c =>
      filteredCheck (filterWorld id name calls) (shopFields id name) calls q t c args && P q t c) :
    ∃ q t c, SentFiltered tshop asValue asGiven cat q t c (filterWorld id name calls) args (shopFields id name) [] [] calls ∧
      P q t c = true := by
  obtain ⟨s, t, c, ha, hk, hg, hc, hcat, ht, hi, hw, hp⟩ := h
  simp only [Bool.and_eq_true, filteredCheck] at hp
  obtain ⟨⟨⟨⟨⟨⟨h1, h2⟩, h3⟩, h4⟩, h5⟩, h6⟩, hp⟩ := hp
  obtain ⟨g1, g2, g3, g4, g5, g6, g7, g8, g9⟩ := of_decide_eq_true h6
  simp only [plainCheck, Bool.and_eq_true, Bool.not_eq_true', decide_eq_true_eq] at h1
  have hA : ∃ env cache n fs s', CacheNamed cache ∧ analyzeQuery env cache n fs = .ok s' ∧ s'.q = s.q :=
    ⟨env0, [], n, fs, s, hc, ha, rfl⟩
  refine ⟨s.q, t, c, ?_, hp⟩
  exact {
    plain := { analyzed := ⟨_, _, _, _, s, ha, rfl⟩, checked := hk, one := h1.1.1, fields := h1.1.2, keys := fun _ => h1.2 }
    accepted := hA
    code := hg
    catalog := hcat
    texts := ht
    infos := hi
    hasFilter := h5
    filled := hw
    told := told_of h2
    sends := g1
    max := g2
    own := g5.imp (fun x => x) List.length_eq_zero_iff.1
    select := g7
    delete := fun e => List.length_eq_zero_iff.1 (g8 e)
    spelled := .of h3
    returned := fun p hp => plainPart_plain (List.all_eq_true.1 h4 p hp)
    sane := tshop_sane _
    values := {
      arg := fun k e he => by
        have hlt := (List.getElem?_eq_some_iff.1 he).1
        have := congrArg (fun l => l[k]?) g3
        simp only [List.getElem?_map, he, Option.map_some, List.getElem?_take, hlt, if_true] at this
        rw [List.getElem?_map]
        exact this.symm
      slice := fun e he => by
        rw [List.length_eq_zero_iff.1 g4] at he
        cases he }
    columns := fun e he => by cases he
    search := by decide
    called := hcall.called
    filter := by
      obtain ⟨⟨x, ps⟩, hx⟩ := Option.isSome_iff_exists.1 g6
      refine ⟨ps, ?_, ?_⟩
      · rw [hx]
        simp [filterWorld, hx]
      · simp [filterWorld, hx, asGiven]
    proper := hcall.proper
    fql := by rw [hcall.fql]; intro r hr; cases hr
    preds := fun x hx => of_decide_eq_true (List.all_eq_true.1 hcall.preds x hx)
    orders := fun x hx => of_decide_eq_true (List.all_eq_true.1 hcall.orders x hx)
    only := fun e => ⟨List.length_eq_zero_iff.1 (g9 e).1, (g9 e).2.1, (g9 e).2.2, hcall.pages⟩ }

/-- What the calls ask for. -/
def callAsks (calls : List (Filter.Call Bytes)) (j : Joined Bytes) : Bool :=
  decide (seqVal (callVals (tshop.frow asGiven j) [] calls none) = some true)

/-- `age > 25 OR name = 'ann'`, by id, at most two. -/
def selCalls : List (Filter.Call Bytes) :=
  [.col b!"u.\"age\"" b!">" (.other b!"25"), .or, .col b!"u.\"name\"" b!"=" (.other b!"ann"),
   .orderBy b!"u.\"id\"" false false, .limit 2]

theorem selCalls_ok : Callable selCalls where
  called := by
    simp only [selCalls, CallsPlain, CallPlain]
    decide +kernel
  proper := by
    simp [selCalls, Filter.Proper, Filter.Call.Proper, Filter.Call.bare, Filter.Call.adds, Filter.colPred]
    decide
  noFql := by decide
  fql := by decide
  preds := by decide +kernel
  orders := by decide +kernel
  pages := by simp [selCalls, Filter.flatCalls, Filter.Call.flat]

/-- The rows asked for by the calls. -/
theorem C96_example_select : ∃ q t c args tree,
    SentFiltered tshop asValue asGiven shopCat q t c (filterWorld [] [] selCalls) args (shopFields [] []) [] [] selCalls ∧
    q.kind = .select ∧ parse (lex (filteredText (filterWorld [] [] selCalls) c)) = some tree ∧
    tshop.Does (args.map asValue) shopTables shopTables [[some b!"2", some []], [some b!"5", some b!"ann"]] tree := by
  obtain ⟨q, t, c, h, hp⟩ := SentFiltered.of (cat := shopCat) (n := b!"SelectUsers") (id := []) (name := [])
    (fs := [relFld (.slice userTy), filterFld]) (args := [.data b!"25", .data b!"ann"]) selCalls_ok
    (P := fun q t _ => decide (q.kind = .select ∧
      (((tshop.server.askedRows (shopFields [] []) shopTables q).filter (callAsks selCalls)).reverse.Pairwise fun a b =>
        tshop.filterOrder (Filter.ordering (α := Bytes) [] selCalls false) a b = true) ∧
      (window (rowsOf (Filter.lastPositive (Filter.limitArgs selCalls)))
        (rowsOf (Filter.lastPositive (Filter.offsetArgs selCalls)))
        ((tshop.server.askedRows (shopFields [] []) shopTables q).filter (callAsks selCalls)).reverse).map
          (fun j => t.reads.map (tshop.server.readField j)) =
        [[some b!"2", some []], [some b!"5", some b!"ann"]]))
    (Meets.of (by decide +kernel) (by decide +kernel))
  obtain ⟨h1, h2, h3⟩ := of_decide_eq_true hp
  obtain ⟨tree, off, ht, hoff, hd⟩ := C96_select_partial h h1
  have e : tshop.asks asGiven [] [] selCalls = callAsks selCalls := funext (C96_calls h selCalls_ok.noFql)
  rw [hoff selCalls_ok.pages, e] at hd
  exact ⟨q, t, c, _, tree, h, h1, ht, (hd _ _ _).2 ⟨rfl, _, List.reverse_perm _, h2, h3.symm⟩⟩

/-- `id IN (5, 2)`. -/
def delCalls : List (Filter.Call Bytes) := [.colIn b!"u.\"id\"" [b!"5", b!"2"]]

theorem delCalls_ok : Callable delCalls where
  called := by
    simp only [delCalls, CallsPlain, CallPlain]
    decide +kernel
  proper := by
    simp [delCalls, Filter.Proper, Filter.Call.Proper, Filter.Call.bare, Filter.Call.adds]
  noFql := by decide
  fql := by decide
  preds := by decide +kernel
  orders := by decide +kernel
  pages := by simp [delCalls, Filter.flatCalls, Filter.Call.flat]

/-- Two users are deleted. -/
theorem C96_example_delete : ∃ q t c args tree,
    SentFiltered tshop asValue asGiven shopCat q t c (filterWorld [] [] delCalls) args (shopFields [] []) [] [] delCalls ∧
    q.kind = .delete ∧ parse (lex (filteredText (filterWorld [] [] delCalls) c)) = some tree ∧
    ∃ T' out, tshop.Does (args.map asValue) shopTables T' out tree ∧
      Generator.cells (T' users) = [[some b!"7", some b!"bob", some b!"40"]] := by
  obtain ⟨q, t, c, h, hp⟩ := SentFiltered.of (cat := shopCat) (n := b!"DeleteUsers") (id := []) (name := [])
    (fs := [relOnly, filterFld]) (args := [.data b!"5", .data b!"2"]) delCalls_ok
    (P := fun q _ _ => decide (q.kind = .delete ∧ q.join.isNone = true ∧ tableOf q.rel.id = users ∧
      Generator.cells ((shopTables users).filter fun r => !callAsks delCalls [(q.rel.id, r)]) =
        [[some b!"7", some b!"bob", some b!"40"]]))
    (Meets.of (by decide +kernel) (by decide +kernel))
  obtain ⟨h1, h2, h3, h4⟩ := of_decide_eq_true hp
  obtain ⟨tree, ht, hd⟩ := C96_delete_partial h h1 (Option.isNone_iff_eq_none.1 h2)
  have e : tshop.asks asGiven [] [] delCalls = callAsks delCalls := funext (C96_calls h delCalls_ok.noFql)
  rw [e] at hd
  refine ⟨q, t, c, _, tree, h, h1, ht, _, _, (hd _ _ _).2 ⟨rfl, rfl⟩, ?_⟩
  rw [h3, ← h4]
  simp [setTable]

/-- `age > 25`. -/
def updCalls : List (Filter.Call Bytes) := [.col b!"u.\"age\"" b!">" (.other b!"25")]

theorem updCalls_ok : Callable updCalls where
  called := by
    simp only [updCalls, CallsPlain, CallPlain]
    decide +kernel
  proper := by
    simp [updCalls, Filter.Proper, Filter.Call.Proper, Filter.Call.bare, Filter.Call.adds, Filter.colPred]
  noFql := by decide
  fql := by decide
  preds := by decide +kernel
  orders := by decide +kernel
  pages := by simp [updCalls, Filter.flatCalls, Filter.Call.flat]

/-- The users older than 25 become the record; the parameter of the filter is the third. -/
theorem C96_example_update : ∃ q t c args tree,
    SentFiltered tshop asValue asGiven shopCat q t c (filterWorld b!"8" b!"x" updCalls) args (shopFields b!"8" b!"x") [] []
      updCalls ∧
    q.kind = .update ∧ parse (lex (filteredText (filterWorld b!"8" b!"x" updCalls) c)) = some tree ∧ args.length = 3 ∧
    ∃ T' out, tshop.Does (args.map asValue) shopTables T' out tree ∧
      Generator.cells (T' users) = [[some b!"8", some b!"x", some b!"40"], [some b!"5", some b!"ann", some b!"20"],
        [some b!"8", some b!"x", some b!"30"]] := by
  obtain ⟨q, t, c, h, hp⟩ := SentFiltered.of (cat := shopCat) (n := b!"UpdateUser") (id := b!"8") (name := b!"x")
    (fs := [relFld (.ptr userTy), filterFld]) (args := [.data b!"8", .data b!"x", .data b!"25"]) updCalls_ok
    (P := fun q t _ => decide (q.kind = .update ∧ q.join.isNone = true ∧ tableOf q.rel.id = users ∧
      Generator.cells ((shopTables users).map fun r => if callAsks updCalls [(q.rel.id, r)] then
        tshop.server.recordOver (fun w => shopFields b!"8" b!"x" (recordPath q w.field)) q t r else r) =
        [[some b!"8", some b!"x", some b!"40"], [some b!"5", some b!"ann", some b!"20"],
          [some b!"8", some b!"x", some b!"30"]]))
    (Meets.of (by decide +kernel) (by decide +kernel))
  obtain ⟨h1, h2, h3, h4⟩ := of_decide_eq_true hp
  obtain ⟨tree, ht, hd⟩ := C96_update_partial h h1 (Option.isNone_iff_eq_none.1 h2)
  have e : tshop.asks asGiven [] [] updCalls = callAsks updCalls := funext (C96_calls h updCalls_ok.noFql)
  rw [e] at hd
  refine ⟨q, t, c, _, tree, h, h1, ht, rfl, _, _, (hd _ _ _).2 ⟨rfl, rfl⟩, ?_⟩
  rw [h3, ← h4]
  simp [setTable]

end Verif.Generator.Gram
