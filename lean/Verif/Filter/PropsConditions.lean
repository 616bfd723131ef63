import Verif.Filter.Conditions
import Verif.Filter.Props

/- Property C91: how the conditions of a filter are joined. -/
namespace Verif.Filter
open Verif

variable {α : Type}

theorem says_expr {cm : List (Bytes × Column α)} {ts : List (Tok α)} {s : List (Seg α)} (h : TokExpr cm ts s) :
    ts.filterMap (Tok.says cm) = s := by
  induction h with
  | rule h => simp [Tok.says, h]
  | paren _ ih => simp [List.filterMap_append, Tok.says, ih]
  | and _ _ ih ih' => simp [List.filterMap_append, Tok.says, ih, ih']
  | or _ _ ih ih' => simp [List.filterMap_append, Tok.says, ih, ih']

theorem asks_adds (cm : List (Bytes × Column α)) (ts : Bytes) (x : Call α) : (x.asks cm ts).isSome = true ↔ x.adds ts := by
  cases x <;> simp [Call.asks, Call.adds, Option.isSome_iff_ne_none]

/-- Something is asked for with the connective that has been said. -/
theorem asked_some (cm : List (Bytes × Column α)) (ts : Bytes) (o : Bool) : ∀ (xs : List (Call α)),
    (∃ y ∈ xs, y.adds ts) → ∃ e l, asked cm ts xs (some o) = (o, e) :: l
  | [], h => by simp at h
  | x :: xs, h => by
    rw [asked]
    cases hx : x.asks cm ts with
    | some e => exact ⟨e, _, rfl⟩
    | none =>
      obtain ⟨y, hy, ha⟩ := h
      rcases List.mem_cons.1 hy with e | e
      · subst e
        rw [← asks_adds cm, hx] at ha
        simp at ha
      · simpa using asked_some cm ts o xs ⟨y, e, ha⟩

/-- The connective that the condition gets. -/
def Call.link (x : Call α) : Seg α := if x.orByItself then .or else .and

abbrev Cons.segs (c : Cons α) : List (Seg α) := c.filter.where_.map Node.seg

abbrev Cons.can (c : Cons α) : Bool := lastCan c.filter.where_

theorem can_of {c : Cons α} {a e : List (Seg α)} (h : c.segs = a ++ e) (he : BoolExpr e) : c.can = true := by
  obtain ⟨l, r, h1, h2, h3⟩ := List.map_eq_append_iff.1 h
  unfold Cons.can
  rw [h1]
  exact lastCan_boolExpr _ _ (h3 ▸ he)

theorem joined_false {cm : List (Bytes × Column α)} {ts : Bytes} : ∀ (xs : List (Call α)) (o o' : Option Bool),
    joined (asked cm ts xs o) = joined (asked cm ts xs o')
  | [], _, _ => rfl
  | x :: xs, o, o' => by
    simp only [asked]
    cases x.asks cm ts with
    | some e => rfl
    | none => exact joined_false xs _ _

theorem and_seg : (Node.and : Node α).seg = .and := rfl

theorem or_seg : (Node.or : Node α).seg = .or := rfl

mutual
/-- What one call does. -/
theorem run_asks (x : Call α) (c : Cons α) (hq : FqlExpr c.colmap (x.fqlRuns c.strict)) (hp : x.Proper c.tscol) :
    match x.asks c.colmap c.tscol with
    | some e => BoolExpr e ∧ (x.run c).segs = c.segs ++ ((if c.can then [x.link] else []) ++ e)
    | none => (x.run c).segs = c.segs ++ (if c.can then (x.joins.map fun o => if o then Seg.or else .and).toList else []) ∧
        ((x.run c).can = (c.can && x.joins.isNone)) := by
  have hpush : ∀ (n : Node α) p, n.seg = .pred p →
      BoolExpr [Seg.pred p] ∧ (c.autoAnd.push n).segs = c.segs ++ ((if c.can then [Seg.and] else []) ++ [.pred p]) := by
    intro n p hn
    refine ⟨.pred p, ?_⟩
    unfold Cons.segs Cons.can
    rw [push_where, autoAnd_where]
    cases lastCan c.filter.where_ <;> simp [hn, and_seg]
  have hsame : ∀ d : Cons α, d.filter.where_ = c.filter.where_ → x.joins = none →
      d.segs = c.segs ++ (if c.can then (x.joins.map fun o => if o then Seg.or else .and).toList else []) ∧
        (d.can = (c.can && x.joins.isNone)) := by
    intro d hd hj
    simp [Cons.segs, Cons.can, hd, hj]
  cases x with
  | col column op v =>
    rcases col_cases c column op v with ⟨n, p, h1, h2, h4, h3⟩ | ⟨h1, h2⟩
    · simp only [Call.asks, h1, Option.map_some, Call.run, h3]
      exact hpush n p h2
    · simp only [Call.asks, h1, Option.map_none]
      apply hsame _ _ rfl
      -- an ineffective Col call of a proper sequence does nothing at all
      simp only [Call.run]
      simp only [Call.Proper] at hp
      unfold colPred at h1
      unfold Cons.col
      by_cases u1 : Cons.toUpper op = b!"ANY"
      · simp only [u1, if_true] at h1 ⊢
        cases v <;> simp at h1 ⊢
      · by_cases u2 : Cons.toUpper op = b!"IN"
        · simp only [u2, if_true] at h1 ⊢
          cases v <;> simp at h1 ⊢
        · simp only [u1, u2, if_false, or_false] at h1 hp
          cases v with
          | nil =>
            rcases hp (.inl rfl) with e | e
            · simp [e] at h1
            · simp [e] at h1
          | bool b =>
            rcases hp (.inr ⟨b, rfl⟩) with e | e
            · simp [e] at h1
            · simp [e] at h1
          | slice k xs => simp at h1
          | other a => simp at h1
  | colIn column xs => exact hpush _ _ rfl
  | colAny column k xs => exact hpush _ _ rfl
  | textSearch s =>
    simp only [Call.run, Cons.textSearch, Call.asks]
    by_cases ht : c.tscol.length = 0
    · simp only [ht, if_true, Nat.lt_irrefl, gt_iff_lt, if_false]
      exact hsame _ rfl rfl
    · have : c.tscol.length > 0 := by omega
      simp only [this, if_true, ht, if_false]
      exact hpush _ _ rfl
  | and =>
    simp only [Call.asks, Call.joins, Call.run, Cons.segs, Cons.can, autoAnd_where]
    by_cases h : lastCan c.filter.where_ = true
    · simp only [h, if_true, lastCan_snoc]; simp [and_seg, Node.canAndOr]
    · simp [h]
  | or =>
    simp only [Call.asks, Call.joins, Call.run, Cons.segs, Cons.can, autoOr_where]
    by_cases h : lastCan c.filter.where_ = true
    · simp only [h, if_true, lastCan_snoc]; simp [or_seg, Node.canAndOr]
    · simp [h]
  | andNest n =>
    simp only [Call.Proper] at hp
    have hg := group_asks n (c.autoAnd.push .lparen) (by simpa [Call.fqlRuns] using hq) (by simpa using hp.1)
      (by rw [Cons.can, push_where]; exact lastCan_push_lparen _) (by simpa using hp.2)
    simp only [push_colmap, push_tscol, autoAnd_colmap, autoAnd_tscol] at hg
    simp only [Call.asks, Call.run]
    refine ⟨.paren hg.1, ?_⟩
    have h2 := hg.2
    unfold Cons.segs at h2
    unfold Cons.segs Cons.can
    rw [push_where, List.map_append, h2, push_where, autoAnd_where]
    cases lastCan c.filter.where_ <;> simp [Node.seg, Call.link, Call.orByItself]
  | orNest n =>
    simp only [Call.Proper] at hp
    have hg := group_asks n (c.autoOr.push .lparen) (by simpa [Call.fqlRuns] using hq) (by simpa using hp.1)
      (by rw [Cons.can, push_where]; exact lastCan_push_lparen _) (by simpa using hp.2)
    simp only [push_colmap, push_tscol, autoOr_colmap, autoOr_tscol] at hg
    simp only [Call.asks, Call.run]
    refine ⟨.paren hg.1, ?_⟩
    have h2 := hg.2
    unfold Cons.segs at h2
    unfold Cons.segs Cons.can
    rw [push_where, List.map_append, h2, push_where, autoOr_where]
    cases lastCan c.filter.where_ <;> simp [Node.seg, Call.link, Call.orByItself]
  | orderBy => exact hsame _ rfl rfl
  | orderByV2 => exact hsame _ rfl rfl
  | limit n => exact hsame _ (by simp only [Call.run, Cons.limit]; split <;> rfl) rfl
  | offset n => exact hsame _ (by simp only [Call.run, Cons.offset]; split <;> rfl) rfl
  | page n => exact hsame _ (by simp only [Call.run, Cons.page]; split <;> rfl) rfl
  | strictSwitch => exact hsame _ rfl rfl
  | unmarshalSort s => exact hsame _ (sort_frame (s.length + 1) s c).2.2.1 rfl
  | unmarshalFQL ts fin =>
    obtain ⟨s, hs⟩ := hq (c.strict, ts) (by simp [Call.fqlRuns, Call.fqlRunsAt])
    obtain ⟨d, E, h1, h2, h3, h4⟩ := fql_expr hs c rfl
    have h5 := h4 fin []
    rw [List.append_nil] at h5
    simp only [Call.asks, says_expr hs, Call.run]
    refine ⟨h3, ?_⟩
    unfold Cons.segs Cons.can
    rw [h5, Cons.fqlLoop, h1.wh, ← h2]
    cases lastCan c.filter.where_ <;> simp [Node.seg, Call.link, Call.orByItself]
/-- What a sequence of calls does. -/
theorem runs_asks (xs : List (Call α)) (c : Cons α) (hq : FqlExpr c.colmap (fqlRuns xs c.strict))
    (hp : Proper c.tscol xs) :
    (c.can = false → ∀ o, (runCalls xs c).segs = c.segs ++ joined (asked c.colmap c.tscol xs o)) ∧
    (c.can = true → (runCalls xs c).segs = c.segs ++ linked (asked c.colmap c.tscol xs none)) := by
  cases xs with
  | nil => simp [runCalls, asked, joined, linked]
  | cons x xs =>
    simp only [Proper] at hp
    have hf := run_frame x c
    have hx := run_asks x c (fun r hr => hq r (by simp [fqlRuns, hr])) hp.1
    have hq' : FqlExpr (x.run c).colmap (fqlRuns xs (x.run c).strict) := by
      rw [colmap_of_env hf.1, hf.2.1]
      exact fun r hr => hq r (by simp [fqlRuns, hr])
    have ht : (x.run c).tscol = c.tscol := tscol_of_env hf.1
    have hp' : Proper (x.run c).tscol xs := by rw [ht]; exact hp.2.2
    have ih := runs_asks xs (x.run c) hq' hp'
    rw [ht, colmap_of_env hf.1] at ih
    simp only [runCalls, asked]
    cases ha : x.asks c.colmap c.tscol with
    | some e =>
      simp only [ha] at hx
      have hcan : (x.run c).can = true := can_of (by rw [hx.2, ← List.append_assoc]) hx.1
      rw [ih.2 hcan, hx.2]
      refine ⟨fun hc o => ?_, fun hc => ?_⟩
      · simp [hc, joined]
      · simp [hc, linked, Call.link]
    | none =>
      simp only [ha] at hx
      dsimp only
      cases hj : x.joins with
      | none =>
        simp only [hj, Option.map_none, Option.toList_none, ite_self, List.append_nil, Option.isNone_none,
          Bool.and_true] at hx
        rw [hx.2, hx.1] at ih
        simpa using ih
      | some b =>
        have hb : x.bare := by cases x <;> simp_all [Call.joins, Call.bare]
        simp only [hj, Option.map_some, Option.toList_some, Option.isNone_some, Bool.and_false] at hx
        have ih := ih.1 hx.2
        rw [hx.1] at ih
        refine ⟨fun hc o => ?_, fun hc => ?_⟩
        · rw [ih (o.or (some b))]
          simp [hc]
        · rw [ih (some b)]
          obtain ⟨e, l, he⟩ := asked_some c.colmap c.tscol b xs (hp.2.1 hb)
          simp [he, hc, joined, linked]
/-- What the calls in a group do. -/
theorem group_asks (xs : List (Call α)) (c : Cons α) (hq : FqlExpr c.colmap (fqlRuns xs c.strict))
    (hp : Proper c.tscol xs) (hc : c.can = false) (ha : ∃ y ∈ xs, y.adds c.tscol) :
    BoolExpr (joined (asked c.colmap c.tscol xs none)) ∧
      (runCalls xs c).segs = c.segs ++ joined (asked c.colmap c.tscol xs none) := by
  have h := (runs_asks xs c hq hp).1 hc none
  refine ⟨?_, h⟩
  obtain ⟨e, he, heq⟩ := at_complete ((runs_at xs c _ .fresh hq hp (At.fresh hc)).1 ha)
  have : c.segs ++ e.map Node.seg = c.segs ++ joined (asked c.colmap c.tscol xs none) := by
    rw [← h]
    unfold Cons.segs
    rw [heq, List.map_append]
  rw [← List.append_cancel_left this]
  exact he
end

/-- **C91** Under the usage rules of C04 the WHERE clause is the conditions that were asked for, in that order; each
is joined to what is before it by what `And()` or `Or()` said since the condition before it, or else by AND, or by OR
if it is a group made with `Or(func)`; a group is in parentheses, and its conditions are joined by the same rules. -/
theorem C91_joined (cm : List (Bytes × Column α)) (tscol : Bytes) (calls : List (Call α)) (hp : Proper tscol calls)
    (hfql : ∀ r ∈ fqlRuns calls false, ∃ s, TokExpr cm r.2 s) :
    segsOf cm tscol calls = joined (asked cm tscol calls none) := by
  have := (runs_asks calls (Cons.initV2 {} cm tscol) hfql hp).1 rfl none
  simpa [Cons.segs, Cons.initV2, segsOf] using this

/-- **C91** So that is the text. -/
theorem C91_text (cm : List (Bytes × Column α)) (tscol : Bytes) (calls : List (Call α)) (hp : Proper tscol calls)
    (hfql : ∀ r ∈ fqlRuns calls false, ∃ s, TokExpr cm r.2 s) (pos : Nat) {w : Bytes} {ps : List (Param α)}
    (h : countSQL cm tscol calls pos = some (w, ps)) :
    w = render (wherePieces (joined (asked cm tscol calls none))) pos ∧
    ps = holes (wherePieces (joined (asked cm tscol calls none))) := by
  rw [← C91_joined cm tscol calls hp hfql]
  rw [countSQL_eq] at h
  dsimp only at h
  split at h
  · simp at h; exact ⟨h.1.symm, h.2.symm⟩
  · simp at h

/-- **C91** The conditions that were asked for are the predicates of C04, and make a boolean expression. -/
theorem C91_grammatical (cm : List (Bytes × Column α)) (tscol : Bytes) (calls : List (Call α)) (hp : Proper tscol calls)
    (hfql : ∀ r ∈ fqlRuns calls false, ∃ s, TokExpr cm r.2 s) :
    let e := joined (asked cm tscol calls none)
    preds e = requested cm tscol calls false ∧ (e = [] ∨ BoolExpr e) := by
  intro e
  have he : segsOf cm tscol calls = e := C91_joined cm tscol calls hp hfql
  refine ⟨he ▸ segsOf_preds .., ?_⟩
  by_cases hex : ∃ y ∈ calls, y.adds tscol
  · exact .inr (group_asks calls (Cons.initV2 {} cm tscol) hfql hp rfl hex).1
  · left
    have := (runs_at calls (Cons.initV2 {} cm tscol) [] .fresh hfql hp (At.fresh rfl)).2
      fun y hy hc => hex ⟨y, hy, hc⟩
    rw [← he, segsOf, this]
    rfl

/-- All the rules: an `Or()` at the beginning says nothing, the first of two connectives counts, `Or(func)` joins with
OR, but not after `And()`. -/
theorem C91_example : Proper (α := Nat) [] [.or, .col b!"a" b!"=" (.other 1), .colIn b!"b" [2, 3], .or, .and,
      .col b!"c" b!"=" .nil, .limit 3, .orNest [.col b!"d" b!"<" (.other 4), .or, .col b!"e" b!"=" (.bool true)], .and,
      .orNest [.colAny b!"f" .int [5]]] ∧
    joined (asked (α := Nat) [] [] [.or, .col b!"a" b!"=" (.other 1), .colIn b!"b" [2, 3], .or, .and,
      .col b!"c" b!"=" .nil, .limit 3, .orNest [.col b!"d" b!"<" (.other 4), .or, .col b!"e" b!"=" (.bool true)], .and,
      .orNest [.colAny b!"f" .int [5]]] none) =
    [.pred ⟨b!"a", .cmp b!"=" (.other 1)⟩, .and, .pred ⟨b!"b", .isIn [2, 3]⟩, .or, .pred ⟨b!"c", .is b!"IS NULL"⟩,
     .or, .opn, .pred ⟨b!"d", .cmp b!"<" (.other 4)⟩, .or, .pred ⟨b!"e", .is b!"IS TRUE"⟩, .cls, .and, .opn,
     .pred ⟨b!"f", .anyOf .int [5]⟩, .cls] := by
  refine ⟨?_, by rfl⟩
  simp [Proper, Call.Proper, Call.bare, Call.adds, colPred]
  decide

/-- What UnmarshalFQL adds is not put in parentheses: with an OR in it, the conditions that the program asked for
before it no longer hold for all the rows that are selected. The condition on the tenant here is joined to the first
rule only. -/
theorem C91_not_fql_grouped :
    filterSQL (α := Nat) [(b!"k", { name := b!"k" })] []
      [.col b!"tenant" b!"=" (.other 1),
       .unmarshalFQL [.rule b!"k" .eq (some (.other 2)), .or, .rule b!"k" .eq (some (.other 3))] none] 0 =
      some (b!" WHERE tenant = $1 AND k = $2 OR k = $3", [.val (.other 1), .val (.other 2), .val (.other 3)]) := by
  decide

end Verif.Filter
