import Verif.Generator.PropsFilterDb3

/- Property C96: what statements with a filter do to the tables is what the query and the calls on the filter ask for. -/
namespace Verif.Generator.Gram
open Verif.Analysis Verif.Postgres Verif.Generator.Lex Print

/-- The number of a call to Limit or Offset. -/
def rowsOf (n : Option Int64) : Option Nat := n.map fun n => n.toInt.toNat

section
variable {V α : Type} [DecidableEq V] {S : TServer V} {sent : Val → Option V} {given : Filter.Param α → Option V}
  {cat : Catalog} {q : Query} {t : TargetInfo} {c : Code} {w : World} {args : List Val} {field : Generator.Fields V}
  {cm : List (Bytes × Filter.Column α)} {tscol : Bytes} {calls : List (Filter.Call α)}

omit [DecidableEq V] in
theorem SentFiltered.filter_ne (h : SentFiltered S sent given cat q t c w args field cm tscol calls) : q.filter ≠ none := by
  intro e
  have := h.hasFilter
  rw [e] at this
  cases this

omit [DecidableEq V] in
theorem SentFiltered.rows_eq (h : SentFiltered S sent given cat q t c w args field cm tscol calls) (T : Tables V) :
    S.server.askedRows field T q = sources T q.rel.id (S.server.askedJoins field q) := by
  have hw := h.plain.toBuilt.shape.filterOnly h.filter_ne
  unfold Server.askedRows Server.askedRow
  simp [hw]

/-- **C96** A select with a filter leaves the tables as they are and returns the rows that the calls on the filter ask
for, in the order that they ask for, from the offset on and not more than the limit. -/
theorem C96_select_partial (h : SentFiltered S sent given cat q t c w args field cm tscol calls) (hk : q.kind = .select) :
    ∃ tree off, parse (lex (filteredText w c)) = some tree ∧
      ((∀ n, Filter.Call.page n ∉ Filter.flatCalls calls) → off = Filter.lastPositive (Filter.offsetArgs calls)) ∧
      ∀ T T' out, S.Does (args.map sent) T T' out tree ↔
        T' = T ∧ ∃ l, l.Perm ((S.server.askedRows field T q).filter (S.asks given cm tscol calls)) ∧
          l.Pairwise (fun a b => S.filterOrder (Filter.ordering cm calls false) a b = true) ∧
          out = (window (rowsOf (Filter.lastPositive (Filter.limitArgs calls))) (rowsOf off) l).map fun j =>
            t.reads.map (S.server.readField j) := by
  obtain ⟨x, off, hp, hr, he, _, hw, _, ho, hl, hf, hoff⟩ := h.tree
  have hs : c.sql.stmt.map (slotExpr c) = _ := congrArg SQL.stmt (C39_select h.plain hk h.code).meant
  refine ⟨_, off, hp, hoff, fun T T' out => ?_⟩
  rw [h.rows_eq T, ← joinsSpec_asked S.server h.plain.toBuilt h.told field]
  generalize c.sql.stmt = s at hr he hs ⊢
  cases s with
  | select cs t' js w' o l k =>
    simp only [Stmt.map, Stmt.select.injEq] at hs
    obtain ⟨e1, rfl, e3, _⟩ := hs
    simp only [endsBeforeWhere, Bool.and_eq_true, Option.isNone_iff_eq_none, List.isEmpty_iff] at he
    obtain ⟨⟨⟨rfl, rfl⟩, h3⟩, h4⟩ := he
    obtain rfl := limit_none h3
    obtain rfl := limit_none h4
    rw [select_filtered (x := x) hr, hw, ho, hl, hf, e1, e3]
    simp only [output_reads, rowsOf]
  | _ => simp [Stmt.map] at hs

/-- **C96** A count with a filter returns the number of the rows that the calls ask for; the limit and the offset of
the filter apply to the one row that is returned, and a filter that asks for an order is rejected. -/
theorem C96_count_partial (h : SentFiltered S sent given cat q t c w args field cm tscol calls) (hk : q.kind = .selectCount) :
    ∃ tree off, parse (lex (filteredText w c)) = some tree ∧
      ((∀ n, Filter.Call.page n ∉ Filter.flatCalls calls) → off = Filter.lastPositive (Filter.offsetArgs calls)) ∧
      ∀ T T' out, S.Does (args.map sent) T T' out tree ↔
        T' = T ∧ Filter.ordering cm calls false = [] ∧
          out = window (rowsOf (Filter.lastPositive (Filter.limitArgs calls))) (rowsOf off)
            [[some (S.ofNat ((S.server.askedRows field T q).filter (S.asks given cm tscol calls)).length)]] := by
  obtain ⟨x, off, hp, hr, he, _, hw, hx, ho, hl, hf, hoff⟩ := h.tree
  have hs : c.sql.stmt.map (slotExpr c) = _ := congrArg SQL.stmt ((C39_count h.plain hk h.code).2 h.filter_ne).meant
  refine ⟨_, off, hp, hoff, fun T T' out => ?_⟩
  rw [h.rows_eq T, ← joinsSpec_asked S.server h.plain.toBuilt h.told field]
  have hxo : x.order = [] ↔ Filter.ordering cm calls false = [] := by rw [hx, List.map_eq_nil_iff]
  generalize c.sql.stmt = s at hr he hs ⊢
  cases s with
  | count t' js w' o k =>
    simp only [Stmt.map, Stmt.count.injEq] at hs
    obtain ⟨rfl, e3, _⟩ := hs
    simp only [endsBeforeWhere, Bool.and_eq_true, Option.isNone_iff_eq_none, List.isEmpty_iff] at he
    obtain ⟨⟨rfl, rfl⟩, h4⟩ := he
    obtain rfl := limit_none h4
    rw [count_filtered (x := x) hr, hw, hl, hf, e3, hxo]
    simp only [rowsOf]
  | _ => simp [Stmt.map] at hs

/-- **C96** An EXISTS with a filter tells whether there is a row that the calls ask for, from the offset on. -/
theorem C96_exists_partial (h : SentFiltered S sent given cat q t c w args field cm tscol calls)
    (hk : q.kind = .selectExists ∨ q.kind = .selectNotExists) :
    ∃ tree off, parse (lex (filteredText w c)) = some tree ∧
      ((∀ n, Filter.Call.page n ∉ Filter.flatCalls calls) → off = Filter.lastPositive (Filter.offsetArgs calls)) ∧
      ∀ T T' out, S.Does (args.map sent) T T' out tree ↔
        T' = T ∧
          let found := window (rowsOf (Filter.lastPositive (Filter.limitArgs calls))) (rowsOf off)
            ((S.server.askedRows field T q).filter (S.asks given cm tscol calls))
          out = [[some (S.ofBool (if q.kind = .selectExists then !found.isEmpty else found.isEmpty))]] := by
  obtain ⟨x, off, hp, hr, he, _, hw, hx, ho, hl, hf, hoff⟩ := h.tree
  have hs : c.sql.stmt.map (slotExpr c) = _ := congrArg SQL.stmt ((C39_exists h.plain hk h.code).2 h.filter_ne).meant
  refine ⟨_, off, hp, hoff, fun T T' out => ?_⟩
  rw [h.rows_eq T, ← joinsSpec_asked S.server h.plain.toBuilt h.told field]
  generalize c.sql.stmt = s at hr he hs ⊢
  cases s with
  | exists_ n op t' js w' o l k =>
    simp only [Stmt.map, Stmt.exists_.injEq] at hs
    obtain ⟨rfl, _, rfl, e3, _⟩ := hs
    simp only [endsBeforeWhere, Bool.and_eq_true, Option.isNone_iff_eq_none, List.isEmpty_iff] at he
    obtain ⟨⟨⟨⟨_, rfl⟩, rfl⟩, h3⟩, h4⟩ := he
    obtain rfl := limit_none h3
    obtain rfl := limit_none h4
    rw [exists_filtered (x := x) hr, hw, hl, hf, e3]
    simp only [rowsOf, decide_eq_true_eq]
    rcases hk with hk | hk <;> simp [hk]
  | _ => simp [Stmt.map] at hs

/-- **C96** An update with a filter changes the rows that the calls ask for to the record, and returns them. -/
theorem C96_update_from_partial (h : SentFiltered S sent given cat q t c w args field cm tscol calls) (hk : q.kind = .update) :
    ∃ tree, parse (lex (filteredText w c)) = some tree ∧ ∀ T T' out, S.Does (args.map sent) T T' out tree ↔
      ∃ ch : List (Row V × Option (Joined V)),
        ch.map (·.1) = T (tableOf q.rel.id) ∧
        (∀ x ∈ ch, Chosen (S.server.askedOthers field T q) (S.asks given cm tscol calls) (q.rel.id, x.1) x.2) ∧
        let over := S.server.recordOver (fun w => field (recordPath q w.field)) q t
        T' = setTable T (tableOf q.rel.id) (ch.map fun x => if x.2.isSome then over x.1 else x.1) ∧
        out = ch.filterMap fun x => x.2.map fun o => t.reads.map (S.server.readField ((q.rel.id, over x.1) :: o)) := by
  obtain ⟨x, off, hp, hr, he, ht, hw, _⟩ := h.tree
  obtain ⟨fr, h1, h2, _, h3⟩ := C39_update h.plain hk h.code
  have hns := h.plain.notSlice (.inr hk)
  have hs : c.sql.stmt.map (slotExpr c) = _ := congrArg SQL.stmt (h3 h.filter_ne).meant
  have htl : c.sql.tail.map (slotExpr c) = _ := congrArg SQL.tail (h3 h.filter_ne).meant
  have hret : (tailVals c.sql.tail).map (VExpr.map (slotExpr c)) = t.reads.map readVal := by
    have e : (tailVals c.sql.tail).map (VExpr.map (slotExpr c)) = tailVals (c.sql.tail.map (slotExpr c)) := by
      cases c.sql.tail <;> rfl
    rw [e, htl]
    by_cases hx : t.reads = []
    · simp [hx, tailVals]
    · simp [hx, tailVals]
  refine ⟨_, hp, fun T T' out => ?_⟩
  generalize c.sql.tail = tl at ht hret ⊢
  generalize c.sql.stmt = s at hr he hs ⊢
  have hover : ∀ (old : Row V) (o : Joined V), S.server.assign (tableOf q.rel.id) (t.writes.map (·.column.name))
      ((t.writes.map (writeSpec q)).map (S.server.cell field ((q.rel.id, old) :: o))) old =
        S.server.recordOver (fun w => field (recordPath q w.field)) q t old := by
    intro old o
    funext n
    rw [Server.assign, setTo_written S.server q t hns]
    rfl
  have hm : ∀ x : Row V × Option (Joined V), ∀ over : Row V → Row V,
      x.2.elim x.1 (fun _ => over x.1) = if x.2.isSome then over x.1 else x.1 := by
    intro x over
    cases x.2 <;> rfl
  cases s with
  | update t' cs vs fr' w' r =>
    simp only [Stmt.map, Stmt.update.injEq] at hs
    obtain ⟨rfl, rfl, e3, e4, _⟩ := hs
    simp only [endsBeforeWhere, Bool.and_eq_true, Option.isNone_iff_eq_none, List.isEmpty_iff] at he
    obtain ⟨rfl, rfl⟩ := he
    rw [update_filtered (x := x) hr ht, hw, e3, e4, hret]
    simp only [others_asked S.server h.plain.toBuilt h.told field T fr h1 h2, output_reads, hover, hm]
  | _ => simp [Stmt.map] at hs

/-- **C96** The same without other tables: of the rows of the table, those that the calls ask for are changed. -/
theorem C96_update_partial (h : SentFiltered S sent given cat q t c w args field cm tscol calls) (hk : q.kind = .update)
    (hj : q.join = none) :
    ∃ tree, parse (lex (filteredText w c)) = some tree ∧ ∀ T T' out, S.Does (args.map sent) T T' out tree ↔
      let over := S.server.recordOver (fun w => field (recordPath q w.field)) q t
      let asked := fun r : Row V => S.asks given cm tscol calls [(q.rel.id, r)]
      T' = setTable T (tableOf q.rel.id) ((T (tableOf q.rel.id)).map fun r => if asked r then over r else r) ∧
      out = ((T (tableOf q.rel.id)).filter asked).map fun r => t.reads.map (S.server.readField [(q.rel.id, over r)]) := by
  obtain ⟨tree, h1, h2⟩ := C96_update_from_partial h hk
  refine ⟨tree, h1, fun T T' out => (h2 T T' out).trans ?_⟩
  have ho : S.server.askedOthers field T q = [[]] := by simp [Server.askedOthers, hj]
  simp only [ho, chosen_alone]
  generalize S.server.recordOver (fun w => field (recordPath q w.field)) q t = over
  generalize S.asks given cm tscol calls = asked
  rw [pairs_iff (T (tableOf q.rel.id)) (fun r => if asked [(q.rel.id, r)] then some [] else none)]
  rw [List.map_map, List.filterMap_map]
  have e1 : ∀ r : Row V, ((fun x : Row V × Option (Joined V) => if x.2.isSome then over x.1 else x.1) ∘
      fun r => (r, if asked [(q.rel.id, r)] then some [] else none)) r =
        if asked [(q.rel.id, r)] then over r else r := by
    intro r
    by_cases hb : asked [(q.rel.id, r)] = true <;> simp [hb]
  have e2 : ∀ r : Row V, ((fun x : Row V × Option (Joined V) => x.2.map fun o =>
      t.reads.map (S.server.readField ((q.rel.id, over x.1) :: o))) ∘
      fun r => (r, if asked [(q.rel.id, r)] then some [] else none)) r =
        if asked [(q.rel.id, r)] then some (t.reads.map (S.server.readField [(q.rel.id, over r)])) else none := by
    intro r
    by_cases hb : asked [(q.rel.id, r)] = true <;> simp [hb]
  rw [funext e1, funext e2, filterMap_if]

/-- **C96** A delete with a filter removes the rows that the calls ask for. -/
theorem C96_delete_using_partial (h : SentFiltered S sent given cat q t c w args field cm tscol calls) (hk : q.kind = .delete) :
    ∃ tree, parse (lex (filteredText w c)) = some tree ∧ ∀ T T' out, S.Does (args.map sent) T T' out tree ↔
      ∃ ch : List (Row V × Option (Joined V)),
        ch.map (·.1) = T (tableOf q.rel.id) ∧
        (∀ x ∈ ch, Chosen (S.server.askedOthers field T q) (S.asks given cm tscol calls) (q.rel.id, x.1) x.2) ∧
        T' = setTable T (tableOf q.rel.id) ((ch.filter fun x => x.2.isNone).map (·.1)) ∧
        out = ch.filterMap fun x => x.2.map fun _ => [] := by
  obtain ⟨x, off, hp, hr, he, _, hw, _⟩ := h.tree
  obtain ⟨us, h1, h2, h3⟩ := C39_delete h.plain hk h.code
  have hs : c.sql.stmt.map (slotExpr c) = _ := congrArg SQL.stmt h3.meant
  refine ⟨_, hp, fun T T' out => ?_⟩
  generalize c.sql.stmt = s at hr he hs ⊢
  cases s with
  | delete t' us' w' r =>
    simp only [Stmt.map, Stmt.delete.injEq] at hs
    obtain ⟨rfl, e3, _⟩ := hs
    simp only [endsBeforeWhere, Bool.and_eq_true, Option.isNone_iff_eq_none, List.isEmpty_iff] at he
    obtain ⟨rfl, rfl⟩ := he
    rw [delete_filtered (x := x) hr, hw, e3]
    simp only [others_asked S.server h.plain.toBuilt h.told field T us h1 h2]
  | _ => simp [Stmt.map] at hs

/-- **C96** The same without other tables: what is left are the rows that the calls do not ask for. -/
theorem C96_delete_partial (h : SentFiltered S sent given cat q t c w args field cm tscol calls) (hk : q.kind = .delete)
    (hj : q.join = none) :
    ∃ tree, parse (lex (filteredText w c)) = some tree ∧ ∀ T T' out, S.Does (args.map sent) T T' out tree ↔
      let asked := fun r : Row V => S.asks given cm tscol calls [(q.rel.id, r)]
      T' = setTable T (tableOf q.rel.id) ((T (tableOf q.rel.id)).filter fun r => !asked r) ∧
      out = ((T (tableOf q.rel.id)).filter asked).map fun _ => [] := by
  obtain ⟨tree, h1, h2⟩ := C96_delete_using_partial h hk
  refine ⟨tree, h1, fun T T' out => (h2 T T' out).trans ?_⟩
  have ho : S.server.askedOthers field T q = [[]] := by simp [Server.askedOthers, hj]
  simp only [ho, chosen_alone]
  generalize S.asks given cm tscol calls = asked
  rw [pairs_iff (T (tableOf q.rel.id)) (fun r => if asked [(q.rel.id, r)] then some [] else none)]
  rw [List.filterMap_map]
  have e2 : ∀ r : Row V, ((fun x : Row V × Option (Joined V) => x.2.map fun _ => ([] : List (Option V))) ∘
      fun r => (r, if asked [(q.rel.id, r)] then some [] else none)) r =
        if asked [(q.rel.id, r)] then some [] else none := by
    intro r
    by_cases hb : asked [(q.rel.id, r)] = true <;> simp [hb]
  rw [funext e2, filterMap_if, List.filter_map, List.map_map]
  have e3 : ((fun x : Row V × Option (Joined V) => x.2.isNone) ∘
      fun r => (r, if asked [(q.rel.id, r)] then some [] else none)) = fun r => !asked [(q.rel.id, r)] := by
    funext r
    by_cases hb : asked [(q.rel.id, r)] = true <;> simp [hb]
  rw [e3]
  simp [Function.comp_def]

/-! ### What is asked for -/

omit [DecidableEq V] in
/-- **C96** What the calls ask for, when there is no FQL among them: what they say, one after the other. -/
theorem C96_calls (h : SentFiltered S sent given cat q t c w args field cm tscol calls) (hq : callsNoFql calls = true)
    (j : Joined V) :
    S.asks given cm tscol calls j = decide (seqVal (callVals (S.frow given j) tscol calls none) = some true) :=
  asks_calls h.proper h.fql hq h.preds j

omit [DecidableEq V] in
/-- **C96** Calls that add no condition ask for every row: an update or a delete with such a filter is of all rows. -/
theorem C96_every (h : Filter.asked cm tscol calls none = []) (j : Joined V) : S.asks given cm tscol calls j = true := by
  unfold TServer.asks TServer.Asks
  rw [h]
  simp [Filter.joined]

omit [DecidableEq V] in
/-- **C96** When all calls are linked by AND, no other call, FQL included, makes the statement touch a row for which a call is
not true. -/
theorem C96_guard (h : SentFiltered S sent given cat q t c w args field cm tscol calls) (hand : ∀ x ∈ calls, AndOnly x)
    {y : Filter.Call α} (hy : y ∈ calls) {e : List (Filter.Seg α)} (he : y.asks cm tscol = some e) (j : Joined V)
    {u : B3} (hu : Says (S.frow given j) .fact e u) (hne : u ≠ some true) : S.asks given cm tscol calls j = false := by
  unfold TServer.asks
  rw [decide_eq_false_iff_not]
  rintro (h0 | h1)
  · have hpj : ∀ x ∈ Filter.preds (Filter.joined (Filter.asked cm tscol calls none)), PredGram x := by
      rw [(Filter.C91_grammatical cm tscol calls h.proper h.fql).1]
      exact h.preds
    obtain ⟨W, h1, h2⟩ := and_parts (R := S.frow given j) cm tscol calls false none rfl hand h.proper h.fql
      fun x hx p hp => hpj p (preds_joined _ hx hp)
    obtain ⟨_, v, hv, _⟩ := h2 y hy e he
    by_cases hL : Filter.asked cm tscol calls none = []
    · rw [hL] at h1
      cases W with
      | nil => cases hv
      | cons _ _ => exact h1.elim
    · exact says_ne (parts_says h1 hL) h0
  · exact hne (C93_guard h.proper h.fql h.preds hand h1 hy he hu)

end

end Verif.Generator.Gram
