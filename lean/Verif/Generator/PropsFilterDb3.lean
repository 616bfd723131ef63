import Verif.Generator.PropsFilterDb2
import Verif.Generator.PropsFGram4

/- Property C96: what statements with a filter do to the tables is what the query and the calls on the filter ask for. -/
namespace Verif.Generator.Gram
open Verif.Analysis Verif.Postgres Verif.Generator.Lex Print

/-- A query with a filter is accepted, its method is called with the values `field` and with a filter on which `calls`
were made, and sends `args`; the texts are such that PostgreSQL reads the statement that is meant (C90, `Spelled`). -/
structure SentFiltered {V α : Type} (S : TServer V) (sent : Val → Option V) (given : Filter.Param α → Option V)
    (cat : Catalog) (q : Query) (t : TargetInfo) (c : Code) (w : World) (args : List Val) (field : Generator.Fields V)
    (cm : List (Bytes × Filter.Column α)) (tscol : Bytes) (calls : List (Filter.Call α)) : Prop where
  plain : Plain cat q t
  accepted : ∃ env cache n fs s, CacheNamed cache ∧ analyzeQuery env cache n fs = .ok s ∧ s.q = q
  code : generate q t = some c
  catalog : CatPlain cat
  texts : ∀ x ∈ queryTexts q, Whole x
  infos : InfoFits q t
  hasFilter : q.filter.isSome = true
  filled : Filled w c
  told : AsTold q
  sends : sentArgs q w c = some args
  max : args.length ≤ 65535
  own : q.kind = .update ∨ c.args = []
  select : q.kind = .select → (q.orderBy.getD []).isEmpty = true ∧ limited q = false ∧ adds q.offset = false
  delete : q.kind = .delete → t.reads = []
  spelled : Spelled c.sql.stmt
  returned : ∀ p ∈ (tailVals c.sql.tail).flatMap valParts, p.Plain
  sane : Sane S c.sql.stmt
  values : Given S sent w c args field
  columns : ∀ e ∈ cm, Whole e.2.name
  search : Whole tscol
  called : CallsPlain calls
  filter : ∃ ps, Filter.filterSQL cm tscol calls c.args.length = some ((w.filter c.args.length).1, ps) ∧
    (w.filter c.args.length).2.map sent = ps.map given
  proper : Filter.Proper tscol calls
  fql : ∀ r ∈ Filter.fqlRuns calls false, ∃ s, Filter.TokExpr cm r.2 s
  preds : ∀ x ∈ Filter.requested cm tscol calls false, PredGram x
  orders : ∀ i ∈ Filter.ordering cm calls false, ColText i.column
  only : q.kind = .update ∨ q.kind = .delete → Filter.ordering cm calls false = [] ∧
    Filter.lastPositive (Filter.limitArgs calls) = none ∧ Filter.lastPositive (Filter.offsetArgs calls) = none ∧
    ∀ n, Filter.Call.page n ∉ Filter.flatCalls calls

theorem tail_vals {α : Type} {f : α → Bytes} {s : Stmt α} {tl : Tail α} (h : TailGram f s tl) :
    ValsGram f (tailVals tl) := by
  unfold TailGram at h
  split at h
  · exact h
  · intro v hv; cases hv
  · exact h.elim

section
variable {q : Query} {t : TargetInfo} {sp : SQL GoExpr}

theorem filtered_values (hs : sqlSpec q t = some sp) (hone : isInsertOrUpdateSlice q = false)
    (hi : q.kind ≠ .insert) :
    (∀ x ∈ stmtOuts sp.stmt, Basic x) ∧ (∀ x ∈ stmtNews sp.stmt, Cell x) ∧ ∀ x ∈ tailVals sp.tail, Basic x := by
  have hw : ∀ x ∈ t.writes.map (writeSpec q), Cell x := by
    intro x hx
    obtain ⟨r, _, rfl⟩ := List.mem_map.1 hx
    exact cell_write q r
  have hnil : ∀ (P : VExpr GoExpr → Prop), ∀ x ∈ ([] : List (VExpr GoExpr)), P x := by simp
  unfold sqlSpec buildStmt at hs
  split at hs
  · next hk => exact absurd hk hi
  · next hk =>
    have h1 : q.rel.type.isSlice = false := by
      simpa [isInsertOrUpdateSlice, isInsertOrUpdate, hk] using hone
    have h2 : q.isSliceUpdate = false := by simp [Query.isSliceUpdate, h1]
    simp only [buildUpdate, h1, h2, Bool.false_eq_true, if_false, Option.map_eq_some_iff] at hs
    obtain ⟨fr, _, rfl⟩ := hs
    split
    · exact ⟨hnil _, hw, outputVals_basic⟩
    · exact ⟨outputVals_basic, hw, hnil _⟩
  · simp only [Option.some.injEq] at hs
    subst hs
    exact ⟨outputVals_basic, hnil _, hnil _⟩
  · simp only [buildCount, Option.some.injEq] at hs
    subst hs
    split <;> exact ⟨hnil _, hnil _, hnil _⟩
  · simp only [buildExists, Option.some.injEq] at hs
    subst hs
    split <;> exact ⟨hnil _, hnil _, hnil _⟩
  · simp only [buildExists, Option.some.injEq] at hs
    subst hs
    split <;> exact ⟨hnil _, hnil _, hnil _⟩
  · simp only [buildDelete, Option.map_eq_some_iff] at hs
    obtain ⟨fr, _, rfl⟩ := hs
    exact ⟨outputVals_basic, hnil _, hnil _⟩

end

section
variable {V α : Type} [DecidableEq V] {S : TServer V} {sent : Val → Option V} {given : Filter.Param α → Option V}
  {cat : Catalog} {q : Query} {t : TargetInfo} {c : Code} {w : World} {args : List Val} {field : Generator.Fields V}
  {cm : List (Bytes × Filter.Column α)} {tscol : Bytes} {calls : List (Filter.Call α)}

/-- What is known about the statement that is sent. -/
theorem SentFiltered.tree (h : SentFiltered S sent given cat q t c w args field cm tscol calls) :
    let f := fun a => (Generator.slotText w c a).getD []
    ∃ x off, parse (lex (filteredText w c)) = some (filteredTree f x c.sql.stmt c.sql.tail) ∧
      Ready S (args.map sent) field f (slotExpr c) (closed c.sql.stmt) ∧ endsBeforeWhere c.sql.stmt = true ∧
      (∀ j, S.output (args.map sent) j ((tailVals c.sql.tail).map (valTree f)) =
        S.server.output field j ((tailVals c.sql.tail).map (VExpr.map (slotExpr c)))) ∧
      S.holds (args.map sent) x.wher = S.asks given cm tscol calls ∧
      x.order = (Filter.ordering cm calls false).map itemTree ∧
      S.notAfter (args.map sent) x.order = S.filterOrder (Filter.ordering cm calls false) ∧
      S.rows (args.map sent) x.limit = (Filter.lastPositive (Filter.limitArgs calls)).map (fun n => n.toInt.toNat) ∧
      S.rows (args.map sent) x.offset = (off : Option Int64).map (fun n => n.toInt.toNat) ∧
      ((∀ n, Filter.Call.page n ∉ Filter.flatCalls calls) → off = Filter.lastPositive (Filter.offsetArgs calls)) := by
  intro f
  obtain ⟨env, cache, n, fs, s, hc, ha, rfl⟩ := h.accepted
  obtain ⟨ps, hsql, hps⟩ := h.filter
  obtain ⟨x, off, hw, ho, hl, hk, hoff, hparse⟩ := C90_filtered w hc ha h.plain.checked h.code h.catalog h.texts h.infos
    h.hasFilter h.filled h.select h.delete h.columns h.search h.called hsql h.proper h.fql h.preds h.orders h.only
  have hb := h.plain.toBuilt
  have hend := (C67_place_partial hb h.hasFilter h.code).2 ⟨h.select, h.delete⟩
  obtain ⟨g1, g2, _, _⟩ := generate_head kinds_num kinds_slice hb h.infos h.hasFilter h.code
  obtain ⟨sp, hsp, hsay⟩ := h.plain.says h.code
  have hne : s.q.filter ≠ none := by
    intro e
    have := h.hasFilter
    rw [e] at this
    cases this
  have hi : s.q.kind ≠ .insert := fun hi => hne (hb.shape.insertRows hi).2.2
  obtain ⟨h4, h5, h7⟩ := filtered_values hsp h.plain.one hi
  have h6 : c.sql.stmt.map (slotExpr c) = sp.stmt := congrArg SQL.stmt hsay.meant
  have h8 : c.sql.tail.map (slotExpr c) = sp.tail := congrArg SQL.tail hsay.meant
  have hwn : c.sql.stmt.wher = none := by
    revert hend
    cases c.sql.stmt <;> simp only [endsBeforeWhere, Bool.and_eq_true, Option.isNone_iff_eq_none, Stmt.wher] <;> simp_all
  have hargs := C67_arguments_partial h.plain h.hasFilter h.code h.own w
  rw [h.sends, Option.some.injEq] at hargs
  have hpar : args.map sent = (c.args.map (eval w.field)).map sent ++ ps.map given := by
    rw [hargs, List.map_append, hps]
  have hbound : ∀ (j : Joined V) (a : Slot), a ∈ c.slots →
      Bound (S.row j) (args.map sent) (S.server.cond field j) f (slotExpr c) a := fun j a hm =>
    bound_given h.plain h.code h.sends h.max h.filled hm (fun k e _ he => h.values.arg k e he) h.values.slice
  refine ⟨x, off, hparse, ?_, hend, ?_, ?_, ho, ?_, ?_, ?_, hoff⟩
  · exact {
      gram := head_gram g1 hend
      spelled := closed_spelled h.spelled
      sane := closed_sane h.sane
      bound := fun j a hm => hbound j a (by
        rw [closed_slots] at hm
        exact List.mem_append_left _ hm)
      outs := fun x hx => basic_map (slotExpr c) (h4 _ (by
        rw [closed_outs] at hx
        rw [← h6, outs_map]
        exact List.mem_map.2 ⟨x, hx, rfl⟩))
      news := fun x hx => cell_map (slotExpr c) (h5 _ (by
        rw [closed_news] at hx
        rw [← h6, news_map]
        exact List.mem_map.2 ⟨x, hx, rfl⟩))
      wher := fun l hl => by
        rw [closed_wher, hwn] at hl
        cases hl
      joins := fun x hx hn => by
        rw [closed_joins] at hx
        exact join_total h.plain h.code h.told hx hn }
  · intro j
    refine output_of j (fun x hx => basic_map (slotExpr c) (h7 _ ?_)) ?_ (fun a ha => hbound j a ?_) h.returned
    · rw [← h8]
      revert hx
      cases c.sql.tail <;> intro hx <;> first
        | exact List.mem_map.2 ⟨x, hx, rfl⟩
        | cases hx
    · exact tail_vals g2
    · refine List.mem_append_right _ ?_
      revert ha
      cases c.sql.tail <;> intro ha <;> first
        | (simp only [Tail.slots, List.mem_append]; exact .inr ha)
        | cases ha
  · rw [hpar]
    exact wher_asks h.proper h.fql h.preds hsql hw (by simp)
  · funext a b
    rw [ho, order_asked h.orders]
  · rw [hl, count_rows h.sane.nat]
  · rw [hk, count_rows h.sane.nat]

end

end Verif.Generator.Gram
