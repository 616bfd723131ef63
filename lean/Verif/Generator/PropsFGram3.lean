import Verif.Filter.PropsConditions
import Verif.Generator.PropsFGram2
import Verif.Generator.PropsFiltered
import Verif.Generator.PropsGram9
import Verif.Generator.PropsLex6

/- Property C90: the statement that is sent with a filter is parsed as the tree that is meant. -/
namespace Verif.Generator.Gram
open Verif.Analysis Verif.Postgres Verif.Generator.Lex Print

/-! ### The tokens of the filter -/

section
variable {α : Type}

/-- The tokens of what was asked for. -/
def callToks (cm : List (Bytes × Filter.Column α)) (tscol : Bytes) (calls : List (Filter.Call α)) (off : Option Int64)
    (p : Nat) : List Tok :=
  whereSegToks p (Filter.segsOf cm tscol calls) ++ (orderItemsToks (Filter.ordering cm calls false) ++
    (countToks b!"limit" (Filter.lastPositive (Filter.limitArgs calls)) ++ countToks b!"offset" off))

theorem count_toks (w : Bytes) (o : Option Int64) (h : ∀ n, o = some n → 0 < n) :
    (if o.getD 0 > 0 then kw w ++ [.num (itoa (o.getD 0).toInt.toNat)] else []) = countToks w o := by
  cases o with
  | none => simp [countToks]
  | some n =>
    have := h n rfl
    simp [countToks, this]

theorem filterToks_calls (cm : List (Bytes × Filter.Column α)) (tscol : Bytes) (calls : List (Filter.Call α)) (p : Nat)
    (hord : ∀ i ∈ Filter.ordering cm calls false, ColText i.column) :
    ∃ off : Option Int64, ((∀ n, Filter.Call.page n ∉ Filter.flatCalls calls) →
        off = Filter.lastPositive (Filter.offsetArgs calls)) ∧
      (∀ n, off = some n → 0 < n) ∧
      off.getD 0 = (if (Filter.runCalls calls (Filter.Cons.initV2 {} cm tscol)).filter.offset > 0 then
        (Filter.runCalls calls (Filter.Cons.initV2 {} cm tscol)).filter.offset else 0) ∧
      filterToks (Filter.runCalls calls (Filter.Cons.initV2 {} cm tscol)).filter p = callToks cm tscol calls off p := by
  generalize hc : Filter.runCalls calls (Filter.Cons.initV2 {} cm tscol) = c
  have h1 : c.filter.orderby = Filter.addItems [] (Filter.ordering cm calls false) :=
    hc ▸ Filter.runCalls_orderby calls (Filter.Cons.initV2 {} cm tscol)
  have h2 : c.filter.limit = (Filter.lastPositive (Filter.limitArgs calls)).getD 0 := by
    have := congrArg Prod.fst (Filter.runCalls_limOff calls (Filter.Cons.initV2 {} cm tscol))
    rw [Filter.limits_fold, hc] at this
    exact this
  have h3 : (∀ n, Filter.Call.page n ∉ Filter.flatCalls calls) →
      c.filter.offset = (Filter.lastPositive (Filter.offsetArgs calls)).getD 0 := by
    intro hp
    have := congrArg Prod.snd (Filter.runCalls_limOff calls (Filter.Cons.initV2 {} cm tscol))
    rw [Filter.offsets_fold _ _ hp, hc] at this
    exact this
  refine ⟨if c.filter.offset > 0 then some c.filter.offset else none, ?_, ?_, ?_, ?_⟩
  · intro hp
    rw [h3 hp]
    cases ho : Filter.lastPositive (Filter.offsetArgs calls) with
    | none => simp
    | some n =>
      have := Filter.lastPositive_pos ho
      simp [this]
  · intro n hn
    split at hn
    · next h => cases hn; exact h
    · cases hn
  · split <;> rfl
  · unfold filterToks callToks
    rw [h2, count_toks _ _ fun n hn => Filter.lastPositive_pos hn, nodesToks_segs, Filter.segsOf, hc, h1,
      Filter.addItems_nil]
    have e1 : (if c.filter.where_.length > 0 then kw b!"where" ++ segsToks p (c.filter.where_.map Filter.Node.seg) else []) =
        whereSegToks p (c.filter.where_.map Filter.Node.seg) := by
      unfold whereSegToks
      rw [List.length_map]
      split <;> split <;> first | rfl | omega
    have e2 : (if ((b!", ").intercalate ((Filter.ordering cm calls false).map Filter.OrderItem.text)).length > 0 then
        kw b!"order" ++ kw b!"by" ++ lex ((b!", ").intercalate ((Filter.ordering cm calls false).map
          Filter.OrderItem.text)) else []) = orderItemsToks (Filter.ordering cm calls false) := by
      rw [(items_lex _ fun i hi => (hord i hi).1).lex]
      unfold orderItemsToks
      cases hor : Filter.ordering cm calls false with
      | nil => simp
      | cons i l =>
        have : ((b!", ").intercalate ((i :: l).map Filter.OrderItem.text)).length > 0 := by
          have := Filter.item_text_ne_nil i
          have := List.length_pos_iff.2 this
          cases l with
          | nil => simpa using this
          | cons j l =>
            rw [List.map_cons, List.map_cons, List.intercalate_cons_cons]
            simp only [List.length_append]
            omega
        rw [if_pos this, if_neg (by simp)]
    have e3 : (if c.filter.offset > 0 then kw b!"offset" ++ [.num (itoa c.filter.offset.toInt.toNat)] else []) =
        countToks b!"offset" (if c.filter.offset > 0 then some c.filter.offset else none) := by
      split <;> rfl
    rw [e1, e2, e3]
    simp only [List.append_assoc]

/-- **C90** What was asked for is meant: under the usage rules of C04 the condition has a meaning, and only one. -/
theorem C90_where {cm : List (Bytes × Filter.Column α)} {tscol : Bytes} {calls : List (Filter.Call α)}
    (hp : Filter.Proper tscol calls) (hfql : ∀ r ∈ Filter.fqlRuns calls false, ∃ s, Filter.TokExpr cm r.2 s)
    (hpred : ∀ x ∈ Filter.requested cm tscol calls false, PredGram x) (p : Nat) :
    ∃ e, MeantWhere p (Filter.joined (Filter.asked cm tscol calls none)) e := by
  obtain ⟨h1, h2⟩ := Filter.C91_grammatical cm tscol calls hp hfql
  rcases h2 with h2 | h2
  · exact ⟨none, h2 ▸ .none⟩
  · obtain ⟨q, t, h⟩ := C90_meant h2 p (h1 ▸ hpred)
    exact ⟨some t, .some h⟩

end

/-! ### The statement before the filter -/

section
variable {f : Slot → Bytes} (hnum : ∀ n, AtomText (f (.num n))) (hlist : ∀ k, ListText (f (.slice k)))

include hnum hlist in
theorem generate_head {cat : Catalog} {q : Query} {t : TargetInfo} {c : Code} (hb : Built cat q t) (ht : InfoFits q t)
    (hf : q.filter.isSome = true) (h : generate q t = some c) : HeadGram f c.sql.stmt ∧ TailGram f c.sql.stmt c.sql.tail ∧
      c.sql.closeFilter = isOpen c.sql.stmt ∧ (sortable c.sql.stmt = false → q.kind = .update ∨ q.kind = .delete) := by
  obtain ⟨js, g1, w, g2, h1, h2, hst, _, _, _⟩ := generate_split h
  have hv := (targetValues_gram (q := q) hnum ht.writes).1
  have hl := targetVals_length q t
  have hc := clauses_gram hnum hlist ht h1 h2
  have hout : ValsGram f (outputVals (α := Slot) t) := outputVals_gram ht.reads
  have hne : q.filter ≠ none := by cases hx : q.filter <;> simp_all
  have hfn : q.filter.isNone = false := by cases hx : q.filter <;> simp_all
  have hi : q.kind ≠ .insert := fun hi => hne (hb.shape.insertRows hi).2.2
  cases hq : q.kind with
  | insert => exact absurd hq hi
  | update =>
    have hns : q.rel.type.isSlice = false := by
      cases hs : q.rel.type.isSlice with
      | false => rfl
      | true =>
        have hb : Batch cat q t := { toBuilt := hb, slice := by simp [isInsertOrUpdateSlice, isInsertOrUpdate, hq, hs] }
        exact absurd hb.rows.2.2 hne
    have hsu : q.isSliceUpdate = false := by simp [Query.isSliceUpdate, hns]
    simp only [buildStmt, hq, buildUpdate, hns, hsu, Option.map_eq_some_iff, Bool.false_eq_true, if_false] at hst
    obtain ⟨fr, hfr, hst⟩ := hst
    have hhead : ∀ w r, HeadGram f (.update q.rel.id (t.writes.map fun w => w.column.name) (targetValues q t).vals fr w r) :=
      fun w r => ⟨ht.rel, by simpa using ht.updates hq, by simpa using hl, hv, tableExprs_gram ht hc.joins hfr⟩
    rw [← hst]
    split
    · exact ⟨hhead _ _, hout, rfl, fun _ => .inl rfl⟩
    · exact ⟨hhead _ _, trivial, rfl, fun _ => .inl rfl⟩
  | select =>
    simp only [buildStmt, hq, Option.some.injEq] at hst
    rw [← hst]
    exact ⟨⟨hout, ht.rel, hc.joins⟩, trivial, rfl, nofun⟩
  | selectCount =>
    simp only [buildStmt, hq, Option.some.injEq, buildCount, hfn, Bool.false_eq_true, if_false] at hst
    rw [← hst]
    exact ⟨⟨ht.rel, hc.joins⟩, trivial, rfl, nofun⟩
  | selectExists =>
    simp only [buildStmt, hq, Option.some.injEq, buildExists, hfn, Bool.false_eq_true, if_false] at hst
    rw [← hst]
    exact ⟨⟨ht.rel, hc.joins⟩, trivial, rfl, nofun⟩
  | selectNotExists =>
    simp only [buildStmt, hq, Option.some.injEq, buildExists, hfn, Bool.false_eq_true, if_false] at hst
    rw [← hst]
    exact ⟨⟨ht.rel, hc.joins⟩, trivial, rfl, nofun⟩
  | delete =>
    simp only [buildStmt, hq, buildDelete, Option.map_eq_some_iff] at hst
    obtain ⟨us, hus, hst⟩ := hst
    rw [← hst]
    exact ⟨⟨ht.rel, tableExprs_gram ht hc.joins hus⟩, trivial, rfl, fun _ => .inr rfl⟩

end

section
variable {α : Type} {f g : α → Bytes}

theorem headGram_congr {s : Stmt α} (hs : ∀ a ∈ s.slots, f a = g a) (h : HeadGram f s) : HeadGram g s := by
  have hj : ∀ {js : List (TableJoin α)}, (∀ a ∈ js.flatMap (fun j => j.cond.slots), f a = g a) →
      (∀ j ∈ js, JoinGram f j) → ∀ j ∈ js, JoinGram g j :=
    fun h1 h2 j hj => joinGram_congr (fun a ha => h1 a (List.mem_flatMap.2 ⟨j, hj, ha⟩)) (h2 j hj)
  cases s with
  | insert t cs o vs c r => exact h
  | update t cs vs fr w r =>
    obtain ⟨h1, h2, h3, h4, h5⟩ := h
    simp only [Stmt.slots, List.mem_append, or_imp, forall_and] at hs
    exact ⟨h1, h2, h3, valsGram_congr hs.1.1.1 h4, tablesGram_congr hs.1.1.2 h5⟩
  | select cs t js w o l k =>
    simp only [Stmt.slots, List.mem_append, or_imp, forall_and] at hs
    exact ⟨valsGram_congr hs.1.1.1.1 h.1, h.2.1, hj hs.1.1.1.2 h.2.2⟩
  | count t js w o k =>
    simp only [Stmt.slots, List.mem_append, or_imp, forall_and] at hs
    exact ⟨h.1, hj hs.1.1 h.2⟩
  | exists_ n b t js w o l k =>
    simp only [Stmt.slots, List.mem_append, or_imp, forall_and] at hs
    exact ⟨h.1, hj hs.1.1.1 h.2⟩
  | delete t us w r =>
    simp only [Stmt.slots, List.mem_append, or_imp, forall_and] at hs
    exact ⟨h.1, tablesGram_congr hs.1.1 h.2⟩

theorem tailGram_congr {s : Stmt α} {t : Tail α} (hs : ∀ a ∈ t.slots, f a = g a) (h : TailGram f s t) :
    TailGram g s t := by
  unfold TailGram at h
  split at h
  · simp only [Tail.slots, List.mem_append, or_imp, forall_and] at hs
    exact valsGram_congr hs.2 h
  · cases s <;> exact trivial
  · exact h.elim

end

/-- **C90** The statement that is sent for an accepted query with a filter is parsed, by the rules of PostgreSQL, as
the tree that is meant: what the query asks for, with the condition, the order, the limit and the offset that were asked
for by the calls on the filter. Required is that the query leaves the place free where the filter is put; that an
UPDATE or a DELETE is only given conditions; the usage rules of C04; and that names, types, literals, columns and
operators can stand where they are put. -/
theorem C90_filtered {env : Env} {cache : Cache} {n : Bytes} {fs : List Field} {s : Analysis.St} {cat : Catalog}
    {t : TargetInfo} {c : Code} (w : World) (hc : CacheNamed cache) (ha : analyzeQuery env cache n fs = .ok s)
    (hk : checkQuery cat s.q = .ok t) (hg : generate s.q t = some c) (hcat : CatPlain cat)
    (ht : ∀ x ∈ queryTexts s.q, Whole x) (hi : InfoFits s.q t) (hf : s.q.filter.isSome = true) (hw : Filled w c)
    (hsel : s.q.kind = .select → (s.q.orderBy.getD []).isEmpty = true ∧ limited s.q = false ∧ adds s.q.offset = false)
    (hdel : s.q.kind = .delete → t.reads = [])
    {α : Type} {cm : List (Bytes × Filter.Column α)} {tscol : Bytes} {calls : List (Filter.Call α)}
    (hm : ∀ e ∈ cm, Whole e.2.name) (hts : Whole tscol) (hcalls : CallsPlain calls) {ps : List (Filter.Param α)}
    (hsql : Filter.filterSQL cm tscol calls c.args.length = some ((w.filter c.args.length).1, ps))
    (hp : Filter.Proper tscol calls) (hfql : ∀ r ∈ Filter.fqlRuns calls false, ∃ s, Filter.TokExpr cm r.2 s)
    (hpred : ∀ x ∈ Filter.requested cm tscol calls false, PredGram x)
    (hord : ∀ i ∈ Filter.ordering cm calls false, ColText i.column)
    (honly : s.q.kind = .update ∨ s.q.kind = .delete → Filter.ordering cm calls false = [] ∧
      Filter.lastPositive (Filter.limitArgs calls) = none ∧ Filter.lastPositive (Filter.offsetArgs calls) = none ∧
      ∀ n, Filter.Call.page n ∉ Filter.flatCalls calls) :
    let f := fun a => (Generator.slotText w c a).getD []
    ∃ (x : FilterT) (off : Option Int64),
      MeantWhere c.args.length (Filter.joined (Filter.asked cm tscol calls none)) x.wher ∧
      x.order = (Filter.ordering cm calls false).map itemTree ∧
      x.limit = countEx (Filter.lastPositive (Filter.limitArgs calls)) ∧ x.offset = countEx off ∧
      ((∀ n, Filter.Call.page n ∉ Filter.flatCalls calls) → off = Filter.lastPositive (Filter.offsetArgs calls)) ∧
      parse (lex (Generator.filterText w c (stmtText f c.sql.stmt) (tailText f c.sql.tail))) =
        some (filteredTree f x c.sql.stmt c.sql.tail) := by
  intro f
  have hb : Built cat s.q t := ⟨⟨env, cache, n, fs, s, ha, rfl⟩, hk⟩
  obtain ⟨h1, h2, h3, h4⟩ := generate_head (slotOr_num w c) (slotOr_slice w c) hb hi hf hg
  have h1 := headGram_congr (fun a ha => hw.slotOr (List.mem_append_left _ ha)) h1
  have h2 := tailGram_congr (fun a ha => hw.slotOr (List.mem_append_right _ ha)) h2
  have hend := (C67_place_partial hb hf hg).2 ⟨hsel, hdel⟩
  obtain ⟨off, ho1, ho2, ho3, htk⟩ := filterToks_calls cm tscol calls c.args.length hord
  obtain ⟨e, he⟩ := C90_where hp hfql hpred c.args.length
  refine ⟨⟨e, _, _, _⟩, off, he, rfl, rfl, rfl, ho1, ?_⟩
  rw [(C87_filtered w hc ha hk hg hcat ht hm hts hcalls hsql).1, htk, h3]
  rw [← Filter.C91_joined cm tscol calls hp hfql] at he
  refine C90_stmt (f := f) (x := ⟨e, _, _, _⟩) h1 hend h2 (fun n hn => meant_clause he hn)
    (fun n hn => items_clause (fun i hi => (hord i hi).2) hn) (fun n hn => count_clause _ _ hn)
    (fun n hn => count_clause _ _ hn) ?_
  intro hso
  obtain ⟨h5, h6, h7, h8⟩ := honly (h4 hso)
  rw [ho1 h8, h7, h6, h5]
  exact ⟨rfl, rfl, rfl⟩

end Verif.Generator.Gram
