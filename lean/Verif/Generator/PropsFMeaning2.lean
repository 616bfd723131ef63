import Verif.Generator.PropsFMeaning

/-
C93: the meaning of the calls, and of the statement.
-/
namespace Verif.Generator.Gram
open Verif.Analysis Verif.Postgres Verif.Generator.Lex Print

section
variable {α V : Type} {R : FRow α V}

/-! ### Calls without FQL -/

mutual
/-- No FQL, in groups either. -/
def callNoFql : Filter.Call α → Bool
  | .unmarshalFQL _ _ => false
  | .andNest n => callsNoFql n
  | .orNest n => callsNoFql n
  | _ => true
def callsNoFql : List (Filter.Call α) → Bool
  | [] => true
  | x :: xs => callNoFql x && callsNoFql xs
end

theorem asked_ne (cm : List (Bytes × Filter.Column α)) (tscol : Bytes) : ∀ (calls : List (Filter.Call α)) (o : Option Bool),
    (∃ y ∈ calls, y.adds tscol) → Filter.asked cm tscol calls o ≠ []
  | [], _, ⟨_, h, _⟩ => absurd h (by simp)
  | x :: xs, o, ⟨y, hy, ha⟩ => by
    rw [Filter.asked]
    cases hx : x.asks cm tscol with
    | some e => simp
    | none =>
      refine asked_ne cm tscol xs _ ⟨y, ?_, ha⟩
      rcases List.mem_cons.1 hy with rfl | h
      · exfalso
        cases y <;> simp_all [Filter.Call.adds, Filter.Call.asks]
      · exact h

mutual
theorem call_parts (cm : List (Bytes × Filter.Column α)) (tscol : Bytes) : ∀ (x : Filter.Call α), callNoFql x = true →
    x.Proper tscol → (x.asks cm tscol = none ∧ callVal R tscol x = none) ∨
      ∃ e b, x.asks cm tscol = some e ∧ callVal R tscol x = some b ∧ Says R .fact e b
  | .col c op v, _, _ => by
    cases h : Filter.colPred c op v with
    | none => left; simp [Filter.Call.asks, callVal, h]
    | some p => right; exact ⟨_, _, by simp [Filter.Call.asks, h], by simp [callVal, h], .pred p⟩
  | .colIn c xs, _, _ => .inr ⟨_, _, by simp only [Filter.Call.asks], by simp only [callVal], .pred ⟨c, .isIn xs⟩⟩
  | .colAny c k xs, _, _ => .inr ⟨_, _, by simp only [Filter.Call.asks], by simp only [callVal], .pred ⟨c, .anyOf k xs⟩⟩
  | .textSearch s, _, _ => by
    by_cases h : tscol.length = 0
    · left; simp only [Filter.Call.asks, callVal, if_pos h, and_self]
    · right; exact ⟨_, _, by simp only [Filter.Call.asks, if_neg h], by simp only [callVal, if_neg h], .pred ⟨tscol, .search s⟩⟩
  | .andNest n, h, hp => by
    right
    simp only [Filter.Call.Proper] at hp
    exact ⟨_, _, by simp only [Filter.Call.asks], by simp only [callVal],
      .paren (parts_says (calls_parts cm tscol n none (by simpa [callNoFql] using h) hp.1) (asked_ne cm tscol n none hp.2))⟩
  | .orNest n, h, hp => by
    right
    simp only [Filter.Call.Proper] at hp
    exact ⟨_, _, by simp only [Filter.Call.asks], by simp only [callVal],
      .paren (parts_says (calls_parts cm tscol n none (by simpa [callNoFql] using h) hp.1) (asked_ne cm tscol n none hp.2))⟩
  | .unmarshalFQL _ _, h, _ => by simp [callNoFql] at h
  | .and, _, _ => .inl (by simp [Filter.Call.asks, callVal])
  | .or, _, _ => .inl (by simp [Filter.Call.asks, callVal])
  | .orderBy .., _, _ => .inl (by simp [Filter.Call.asks, callVal])
  | .orderByV2 .., _, _ => .inl (by simp [Filter.Call.asks, callVal])
  | .limit _, _, _ => .inl (by simp [Filter.Call.asks, callVal])
  | .offset _, _, _ => .inl (by simp [Filter.Call.asks, callVal])
  | .page _, _, _ => .inl (by simp [Filter.Call.asks, callVal])
  | .strictSwitch, _, _ => .inl (by simp [Filter.Call.asks, callVal])
  | .unmarshalSort _, _, _ => .inl (by simp [Filter.Call.asks, callVal])
theorem calls_parts (cm : List (Bytes × Filter.Column α)) (tscol : Bytes) : ∀ (calls : List (Filter.Call α)) (o : Option Bool),
    callsNoFql calls = true → Filter.Proper tscol calls → Parts R (Filter.asked cm tscol calls o) (callVals R tscol calls o)
  | [], _, _, _ => by simp [Filter.asked, callVals, Parts]
  | x :: xs, o, h, hp => by
    simp only [callsNoFql, Bool.and_eq_true] at h
    simp only [Filter.Proper] at hp
    rw [Filter.asked, callVals]
    rcases call_parts cm tscol x h.1 hp.1 with ⟨h1, h2⟩ | ⟨e, b, h1, h2, h3⟩
    · rw [h1, h2]
      exact calls_parts cm tscol xs _ h.2 hp.2.2
    · rw [h1, h2]
      exact ⟨rfl, h3, calls_parts cm tscol xs none h.2 hp.2.2⟩
end

/-- **C93** Without FQL, the clause says what the calls say: some of what is between the ORs holds, all its conditions
hold, a group counting as one. -/
theorem C93_calls (cm : List (Bytes × Filter.Column α)) (tscol : Bytes) (calls : List (Filter.Call α))
    (h : callsNoFql calls = true) (hp : Filter.Proper tscol calls) (ha : Filter.asked cm tscol calls none ≠ []) :
    Says R .disj (Filter.joined (Filter.asked cm tscol calls none)) (seqVal (callVals R tscol calls none)) :=
  parts_says (calls_parts cm tscol calls none h hp) ha

/-! ### Conditions that cannot be widened -/

theorem preds_linked (L : List (Bool × List (Filter.Seg α))) : ∀ x ∈ L, ∀ p ∈ Filter.preds x.2,
    p ∈ Filter.preds (Filter.linked L) := by
  induction L with
  | nil => intro x hx; cases hx
  | cons y L ih =>
    intro x hx p hp
    have : Filter.preds (Filter.linked (y :: L)) = Filter.preds y.2 ++ Filter.preds (Filter.linked L) := by
      simp only [Filter.linked, List.flatMap_cons]
      rw [preds_append]
      cases y.1 <;> rfl
    rw [this]
    rcases List.mem_cons.1 hx with rfl | hx
    · exact List.mem_append_left _ hp
    · exact List.mem_append_right _ (ih x hx p hp)

theorem preds_joined (L : List (Bool × List (Filter.Seg α))) {x} (hx : x ∈ L) {p} (hp : p ∈ Filter.preds x.2) :
    p ∈ Filter.preds (Filter.joined L) := by
  cases L with
  | nil => cases hx
  | cons y L =>
    rw [Filter.joined, preds_append]
    rcases List.mem_cons.1 hx with rfl | hx
    · exact List.mem_append_left _ hp
    · exact List.mem_append_right _ (preds_linked L x hx p hp)

/-- The call joins with AND, and what it asks for is one condition or one group. -/
def AndOnly : Filter.Call α → Prop
  | .or => False
  | .orNest _ => False
  | .unmarshalFQL _ _ => False
  | _ => True

/-- Each condition says something. -/
theorem call_says (cm : List (Bytes × Filter.Column α)) (tscol : Bytes) (b : Bool) (x : Filter.Call α) (hx : AndOnly x)
    (hp : x.Proper tscol) (hfql : ∀ r ∈ x.fqlRuns b, ∃ s, Filter.TokExpr cm r.2 s) {e : List (Filter.Seg α)}
    (he : x.asks cm tscol = some e) (hg : ∀ p ∈ Filter.preds e, PredGram p) : ∃ v, Says R .fact e v := by
  cases x with
  | col c op v =>
    simp only [Filter.Call.asks, Option.map_eq_some_iff] at he
    obtain ⟨p, _, rfl⟩ := he
    exact ⟨_, .pred p⟩
  | colIn c xs => simp only [Filter.Call.asks, Option.some.injEq] at he; subst he; exact ⟨_, .pred _⟩
  | colAny c k xs => simp only [Filter.Call.asks, Option.some.injEq] at he; subst he; exact ⟨_, .pred _⟩
  | textSearch s =>
    simp only [Filter.Call.asks] at he
    split at he
    · cases he
    · simp only [Option.some.injEq] at he; subst he; exact ⟨_, .pred _⟩
  | andNest n =>
    simp only [Filter.Call.asks, Option.some.injEq] at he
    subst he
    simp only [Filter.Call.Proper] at hp
    have hq : Filter.FqlExpr cm (Filter.fqlRuns n b) := by
      intro r hr
      exact hfql r (by simpa [Filter.Call.fqlRuns] using hr)
    have hb : Filter.BoolExpr (Filter.joined (Filter.asked cm tscol n none)) :=
      (Filter.group_asks n { Filter.Cons.initV2 {} cm tscol with strict := b } hq hp.1 rfl hp.2).1
    obtain ⟨q, t, hm⟩ := C90_meant hb 0 fun p hp => hg p (by simpa [Filter.preds, preds_append] using hp)
    obtain ⟨v, hv, _⟩ := C93_tree (R := R) hm
    exact ⟨v, .paren hv⟩
  | or => exact hx.elim
  | orNest n => exact hx.elim
  | unmarshalFQL ts fin => exact hx.elim
  | _ => simp [Filter.Call.asks] at he

theorem and_parts (cm : List (Bytes × Filter.Column α)) (tscol : Bytes) : ∀ (calls : List (Filter.Call α)) (b : Bool)
    (o : Option Bool), o.getD false = false → (∀ x ∈ calls, AndOnly x) → Filter.Proper tscol calls →
    (∀ r ∈ Filter.fqlRuns calls b, ∃ s, Filter.TokExpr cm r.2 s) →
    (∀ x ∈ Filter.asked cm tscol calls o, ∀ p ∈ Filter.preds x.2, PredGram p) →
    ∃ W : List B3, Parts R (Filter.asked cm tscol calls o) (W.map fun b => (false, b)) ∧
      ∀ y ∈ calls, ∀ e, y.asks cm tscol = some e → (∀ p ∈ Filter.preds e, PredGram p) ∧ ∃ v ∈ W, Says R .fact e v
  | [], _, _, _, _, _, _, _ => ⟨[], by simp [Filter.asked, Parts], by simp⟩
  | x :: xs, b, o, ho, hx, hp, hfql, hg => by
    simp only [Filter.Proper] at hp
    rw [Filter.fqlRuns] at hfql
    rw [Filter.asked] at hg ⊢
    cases hxa : x.asks cm tscol with
    | none =>
      rw [hxa] at hg
      obtain ⟨W, h1, h2⟩ := and_parts cm tscol xs (x.strictAfter b) (o.or x.joins) (by
          cases o with
          | some k => simpa using ho
          | none =>
            have := hx x (List.mem_cons_self ..)
            cases x <;> simp_all [Filter.Call.joins, AndOnly])
        (fun y hy => hx y (List.mem_cons_of_mem _ hy)) hp.2.2 (fun r hr => hfql r (List.mem_append_right _ hr)) hg
      refine ⟨W, h1, fun y hy e he => ?_⟩
      rcases List.mem_cons.1 hy with rfl | hy
      · rw [hxa] at he; cases he
      · exact h2 y hy e he
    | some e =>
      rw [hxa] at hg
      obtain ⟨v, hv⟩ := call_says (R := R) cm tscol b x (hx x (List.mem_cons_self ..)) hp.1
        (fun r hr => hfql r (List.mem_append_left _ hr)) hxa (hg _ (List.mem_cons_self ..))
      obtain ⟨W, h1, h2⟩ := and_parts cm tscol xs (x.strictAfter b) none rfl
        (fun y hy => hx y (List.mem_cons_of_mem _ hy)) hp.2.2 (fun r hr => hfql r (List.mem_append_right _ hr))
        (fun y hy => hg y (List.mem_cons_of_mem _ hy))
      refine ⟨v :: W, ⟨?_, hv, h1⟩, fun y hy e' he => ?_⟩
      · simp only
        cases o with
        | some k => simpa using ho
        | none =>
          have := hx x (List.mem_cons_self ..)
          cases x <;> simp_all [Filter.Call.orByItself, AndOnly]
      · rcases List.mem_cons.1 hy with rfl | hy
        · rw [hxa] at he
          cases he
          exact ⟨hg _ (List.mem_cons_self ..), v, List.mem_cons_self .., hv⟩
        · obtain ⟨hpe, u, hu, hs⟩ := h2 y hy e' he
          exact ⟨hpe, u, List.mem_cons_of_mem _ hu, hs⟩

theorem restVal_and : ∀ (W : List B3) (acc : B3), restVal acc (W.map fun b => (false, b)) = and3 acc (all3 id W)
  | [], acc => by simp [restVal, all3, and3_true]
  | b :: W, acc => by
    rw [List.map_cons, restVal, restVal_and W, and3_assoc]
    rfl

/-- **C93** If outside of groups nothing is joined by OR, and FQL is only used in groups, every row that is selected
satisfies each of the conditions, and each of the groups: whatever the groups contain. -/
theorem C93_guard {cm : List (Bytes × Filter.Column α)} {tscol : Bytes} {calls : List (Filter.Call α)}
    (hp : Filter.Proper tscol calls) (hfql : ∀ r ∈ Filter.fqlRuns calls false, ∃ s, Filter.TokExpr cm r.2 s)
    (hpred : ∀ x ∈ Filter.requested cm tscol calls false, PredGram x) (hand : ∀ x ∈ calls, AndOnly x)
    (h : Says R .disj (Filter.joined (Filter.asked cm tscol calls none)) (some true))
    {y : Filter.Call α} (hy : y ∈ calls) {e : List (Filter.Seg α)} (he : y.asks cm tscol = some e) {u : B3}
    (hu : Says R .fact e u) : u = some true := by
  have hpj : ∀ x ∈ Filter.preds (Filter.joined (Filter.asked cm tscol calls none)), PredGram x := by
    rw [(Filter.C91_grammatical cm tscol calls hp hfql).1]
    exact hpred
  obtain ⟨W, h1, h2⟩ := and_parts (R := R) cm tscol calls false none rfl hand hp hfql
    fun x hx p hp => hpj p (preds_joined _ hx hp)
  obtain ⟨hep, v, hv, hs⟩ := h2 y hy e he
  obtain rfl : u = v := C93_unique hep (.conj (.fact hu)) (.conj (.fact hs))
  cases hL : Filter.asked cm tscol calls none with
  | nil =>
    rw [hL] at h1
    cases W with
    | nil => cases hv
    | cons _ _ => exact h1.elim
  | cons z L =>
    have hsay := parts_says h1 (by rw [hL]; simp)
    have := C93_unique hpj h hsay
    cases W with
    | nil => cases hv
    | cons w W =>
      rw [List.map_cons, seqVal_rest, restVal_and] at this
      exact all3_true (w :: W) this.symm u hv

end

/-! ### Statements -/

theorem says_ne {α V : Type} {R : FRow α V} {l : Level} {e : List (Filter.Seg α)} {v : B3} (h : Says R l e v) : e ≠ [] := by
  induction h <;> simp_all

theorem sent_holes {α V : Type} {R : FRow α V} {cm : List (Bytes × Filter.Column α)} {tscol : Bytes}
    {calls : List (Filter.Call α)} (hp : Filter.Proper tscol calls)
    (hfql : ∀ r ∈ Filter.fqlRuns calls false, ∃ s, Filter.TokExpr cm r.2 s) {pos : Nat} {w : Bytes} {ps : List (Filter.Param α)}
    (h : Filter.filterSQL cm tscol calls pos = some (w, ps)) :
    ps.map R.sent = sentFor R (Filter.preds (Filter.joined (Filter.asked cm tscol calls none))) := by
  obtain ⟨off, _, ho⟩ := Filter.C05_count_filter cm tscol calls
  rw [ho, Option.map_eq_some_iff] at h
  obtain ⟨⟨w', ps'⟩, h1, h2⟩ := h
  simp only [Prod.mk.injEq] at h2
  have := (Filter.C91_text cm tscol calls hp hfql pos h1).2
  rw [← h2.2, this, Filter.holes_where]
  rfl

/-- **C93** The condition of the statement that PostgreSQL reads, for an accepted query with a filter, holds for a row
exactly if what the calls on the filter ask for holds, with the values that were given: the values sent are those of
the query followed by those of the filter. Without a condition in the calls there is none in the statement. -/
theorem C93_selected {env : Env} {cache : Cache} {n : Bytes} {fs : List Field} {s : Analysis.St} {cat : Catalog}
    {t : TargetInfo} {c : Code} (w : World) (hc : CacheNamed cache) (ha : analyzeQuery env cache n fs = .ok s)
    (hk : checkQuery cat s.q = .ok t) (hg : generate s.q t = some c) (hcat : CatPlain cat)
    (ht : ∀ x ∈ queryTexts s.q, Whole x) (hi : InfoFits s.q t) (hf : s.q.filter.isSome = true) (hw : Filled w c)
    (hsel : s.q.kind = .select → (s.q.orderBy.getD []).isEmpty = true ∧ limited s.q = false ∧ adds s.q.offset = false)
    (hdel : s.q.kind = .delete → t.reads = [])
    {α V : Type} (R : FRow α V) {cm : List (Bytes × Filter.Column α)} {tscol : Bytes} {calls : List (Filter.Call α)}
    (hm : ∀ e ∈ cm, Whole e.2.name) (hts : Whole tscol) (hcalls : CallsPlain calls) {ps : List (Filter.Param α)}
    (hsql : Filter.filterSQL cm tscol calls c.args.length = some ((w.filter c.args.length).1, ps))
    (hp : Filter.Proper tscol calls) (hfql : ∀ r ∈ Filter.fqlRuns calls false, ∃ s, Filter.TokExpr cm r.2 s)
    (hpred : ∀ x ∈ Filter.requested cm tscol calls false, PredGram x)
    (hord : ∀ i ∈ Filter.ordering cm calls false, ColText i.column)
    (honly : s.q.kind = .update ∨ s.q.kind = .delete → Filter.ordering cm calls false = [] ∧
      Filter.lastPositive (Filter.limitArgs calls) = none ∧ Filter.lastPositive (Filter.offsetArgs calls) = none ∧
      ∀ n, Filter.Call.page n ∉ Filter.flatCalls calls) :
    let f := fun a => (Generator.slotText w c a).getD []
    let e := Filter.joined (Filter.asked cm tscol calls none)
    ∃ x : FilterT,
      parse (lex (Generator.filterText w c (stmtText f c.sql.stmt) (tailText f c.sql.tail))) =
        some (filteredTree f x c.sql.stmt c.sql.tail) ∧
      ((e = [] ∧ x.wher = none) ∨ ∃ t v, x.wher = some t ∧ Says R .disj e v ∧ (∀ u, Says R .disj e u → u = v) ∧
        (callsNoFql calls = true → v = seqVal (callVals R tscol calls none)) ∧
        ∀ args : List V, args.length = c.args.length → exHolds R (args ++ ps.map R.sent) t = some v) := by
  intro f e
  obtain ⟨x, off, h1, _, _, _, _, h2⟩ := C90_filtered w hc ha hk hg hcat ht hi hf hw hsel hdel hm hts hcalls hsql hp hfql
    hpred hord honly
  refine ⟨x, h2, ?_⟩
  obtain ⟨wh, o, l, k⟩ := x
  have hpe : ∀ x ∈ Filter.preds e, PredGram x := by
    show ∀ x ∈ Filter.preds (Filter.joined (Filter.asked cm tscol calls none)), PredGram x
    rw [(Filter.C91_grammatical cm tscol calls hp hfql).1]
    exact hpred
  have hsent := sent_holes (R := R) hp hfql hsql
  have he : e = Filter.joined (Filter.asked cm tscol calls none) := rfl
  rw [← he] at h1 hsent
  simp only at h1 ⊢
  clear_value e
  cases h1 with
  | none => exact .inl ⟨rfl, rfl⟩
  | some hmt =>
    obtain ⟨v, h3, h4⟩ := C93_tree (R := R) hmt
    refine .inr ⟨_, v, rfl, h3, fun u hu => C93_unique hpe hu h3, fun hq => ?_, fun args hl => ?_⟩
    · refine C93_unique hpe h3 (he ▸ C93_calls cm tscol calls hq hp fun h0 => says_ne h3 ?_)
      rw [he, h0]
      rfl
    · rw [hsent]
      simpa using h4 args [] hl

end Verif.Generator.Gram
