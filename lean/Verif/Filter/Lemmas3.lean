import Verif.Filter.Lemmas2
/- Helper lemmas for the filter properties: nesting (C03), grammar (C04, C10), shapes (C02). -/
namespace Verif.Filter

open Verif

variable {α : Type}

/-! ### nested parentheses -/

theorem fqlRuns_leaf (x : Call α) (b : Bool) (h1 : ∀ n, x ≠ .andNest n) (h2 : ∀ n, x ≠ .orNest n) :
    x.fqlRuns b = x.fqlRunsAt b := by
  cases x <;> first | rfl | (exfalso; exact h1 _ rfl) | (exfalso; exact h2 _ rfl)

/-- `d` extends the node list of `c` by `ns`, all else that FQL depends on being equal. -/
structure Ext (c d : Cons α) (ns : List (Node α)) : Prop where
  wh : d.filter.where_ = c.filter.where_ ++ ns
  env : d.env = c.env
  strict : d.strict = c.strict

theorem Ext.trans {c d e : Cons α} {a b} (h1 : Ext c d a) (h2 : Ext d e b) : Ext c e (a ++ b) :=
  ⟨by rw [h2.wh, h1.wh, List.append_assoc], h2.env.trans h1.env, h2.strict.trans h1.strict⟩

theorem Ext.refl (c : Cons α) : Ext c c [] := ⟨by simp, rfl, rfl⟩
theorem Ext.push (c : Cons α) (n : Node α) : Ext c (c.push n) [n] := ⟨rfl, rfl, rfl⟩
theorem Ext.autoAnd (c : Cons α) :
    Ext c c.autoAnd (if lastCan c.filter.where_ then [.and] else []) :=
  ⟨autoAnd_where c, env_autoAnd c, autoAnd_strict c⟩

theorem ext_col (c : Cons α) (column op : Bytes) (v : Val α) :
    ∃ ns, Ext c (c.col column op v) ns ∧ Nested (ns.map Node.seg) := by
  have hauto : Nested ((if lastCan c.filter.where_ then [Node.and] else ([] : List (Node α))).map Node.seg) := by
    split
    · exact .and
    · exact .nil
  rcases col_cases c column op v with ⟨n, p, h1, h2, _, h3⟩ | ⟨h1, h2 | h2⟩
  · refine ⟨_, h3 ▸ (Ext.autoAnd c).trans (Ext.push _ n), ?_⟩
    · rw [List.map_append]
      exact .append hauto (by simpa [h2] using Nested.pred p)
  · exact ⟨[], by rw [h2]; exact Ext.refl c, .nil⟩
  · exact ⟨_, by rw [h2]; exact Ext.autoAnd c, hauto⟩

theorem nested_auto (c : Cons α) :
    Nested ((if lastCan c.filter.where_ then [Node.and] else ([] : List (Node α))).map Node.seg) := by
  split
  · exact .and
  · exact .nil

theorem nested_autoOr (c : Cons α) :
    Nested ((if lastCan c.filter.where_ then [Node.or] else ([] : List (Node α))).map Node.seg) := by
  split
  · exact .or
  · exact .nil

theorem nested_paren {e : List (Node α)} (h : Nested (e.map Node.seg)) :
    Nested ((.lparen :: e ++ [.rparen] : List (Node α)).map Node.seg) := by
  simpa [Node.seg] using Nested.paren h

theorem RulesRun.left {cm : List (Bytes × Column α)} {b : Bool} {x y : List (Tok α)}
    (h : RulesRun cm b (x ++ y)) : RulesRun cm b x :=
  fun k c v hm => h k c v (List.mem_append_left _ hm)
theorem RulesRun.right {cm : List (Bytes × Column α)} {b : Bool} {x y : List (Tok α)}
    (h : RulesRun cm b (x ++ y)) : RulesRun cm b y :=
  fun k c v hm => h k c v (List.mem_append_right _ hm)

theorem fql_nested {ts : List (Tok α)} (h : TokNested ts) : ∀ (c : Cons α),
    RulesRun c.colmap c.strict ts →
    ∃ d ns, Ext c d ns ∧ Nested (ns.map Node.seg) ∧
      ∀ fin rest, c.fqlLoop fin (ts ++ rest) = d.fqlLoop fin rest := by
  induction h with
  | nil => intro c _; exact ⟨c, [], Ext.refl c, .nil, fun _ _ => rfl⟩
  | @paren e he ih =>
    intro c hr
    have hr' : RulesRun c.colmap c.strict e :=
      RulesRun.left (y := [.rparen]) (RulesRun.right (x := [.lparen]) hr)
    obtain ⟨d, ns, h1, h2, h3⟩ := ih (c.autoAnd.push .lparen) (by simpa using hr')
    refine ⟨d.push .rparen, _, (((Ext.autoAnd c).trans (Ext.push _ .lparen)).trans h1).trans
      (Ext.push _ _), ?_, ?_⟩
    · have := Nested.append (nested_auto c) (nested_paren h2)
      simpa using this
    · intro fin rest
      simp only [List.cons_append, List.append_assoc, Cons.fqlLoop]
      rw [h3]; rfl
  | @append a b ha hb iha ihb =>
    intro c hr
    obtain ⟨d, ns, h1, h2, h3⟩ := iha c hr.left
    have hr' : RulesRun d.colmap d.strict b := by
      rw [colmap_of_env h1.env, h1.strict]; exact hr.right
    obtain ⟨e, ms, k1, k2, k3⟩ := ihb d hr'
    refine ⟨e, _, h1.trans k1, ?_, ?_⟩
    · rw [List.map_append]; exact .append h2 k2
    · intro fin rest; rw [List.append_assoc, h3, k3]
  | rule k cmp v =>
    intro c hr
    have := hr k cmp v (by simp)
    simp only [List.singleton_append, Cons.fqlLoop, cmpStr_eq, lookup_eq]
    cases hc : columnFor c.colmap k with
    | none =>
      rw [hc] at this
      exact ⟨c, [], Ext.refl c, .nil, fun _ _ => by simp [this]⟩
    | some cl =>
      rw [hc] at this
      cases hcv : cl.convert with
      | none =>
        obtain ⟨ns, h1, h2⟩ := ext_col c cl.name (Cmp.sql cmp) (v.getD .nil)
        exact ⟨_, ns, h1, h2, fun _ _ => by simp [hcv]⟩
      | some f =>
        obtain ⟨w, hw⟩ := this f hcv
        obtain ⟨ns, h1, h2⟩ := ext_col c cl.name (Cmp.sql cmp) w
        exact ⟨_, ns, h1, h2, fun _ _ => by simp [hcv, hw]⟩
  | and => intro c _; exact ⟨_, _, Ext.push c .and, .and, fun _ _ => rfl⟩
  | or => intro c _; exact ⟨_, _, Ext.push c .or, .or, fun _ _ => rfl⟩

def FqlNested (cm : List (Bytes × Column α)) (runs : List (Bool × List (Tok α))) : Prop :=
  ∀ r ∈ runs, TokNested r.2 ∧ RulesRun cm r.1 r.2

mutual
theorem run_nested (x : Call α) (c : Cons α) (h : FqlNested c.colmap (x.fqlRuns c.strict)) :
    ∃ ns, (x.run c).filter.where_ = c.filter.where_ ++ ns ∧ Nested (ns.map Node.seg) := by
  have hpush : ∀ (n : Node α) p, n.seg = .pred p →
      ∃ ns, (c.autoAnd.push n).filter.where_ = c.filter.where_ ++ ns ∧ Nested (ns.map Node.seg) := by
    intro n p hn
    refine ⟨_, ((Ext.autoAnd c).trans (Ext.push _ n)).wh, ?_⟩
    rw [List.map_append]
    exact .append (nested_auto c) (by simpa [hn] using Nested.pred p)
  have hsame : ∀ d : Cons α, d.filter.where_ = c.filter.where_ →
      ∃ ns, d.filter.where_ = c.filter.where_ ++ ns ∧ Nested (ns.map Node.seg) :=
    fun d hd => ⟨[], by simpa using hd, .nil⟩
  cases x with
  | col column op v =>
    obtain ⟨ns, h1, h2⟩ := ext_col c column op v
    exact ⟨ns, h1.wh, h2⟩
  | colIn column xs => exact hpush _ _ rfl
  | colAny column k xs => exact hpush _ _ rfl
  | textSearch s =>
    simp only [Call.run, Cons.textSearch]
    split
    · exact hpush _ _ rfl
    · exact hsame c rfl
  | and => exact ⟨_, autoAnd_where c, nested_auto c⟩
  | or => exact ⟨_, autoOr_where c, nested_autoOr c⟩
  | andNest n =>
    obtain ⟨ns, h1, h2⟩ := runs_nested n (c.autoAnd.push .lparen) (by simpa [Call.fqlRuns] using h)
    simp only [Call.run, push_where, h1, autoAnd_where]
    refine ⟨(if lastCan c.filter.where_ then [.and] else []) ++ (.lparen :: ns ++ [.rparen]),
      by simp, ?_⟩
    rw [List.map_append]
    exact .append (nested_auto c) (nested_paren h2)
  | orNest n =>
    obtain ⟨ns, h1, h2⟩ := runs_nested n (c.autoOr.push .lparen) (by simpa [Call.fqlRuns] using h)
    simp only [Call.run, push_where, h1, autoOr_where]
    refine ⟨(if lastCan c.filter.where_ then [.or] else []) ++ (.lparen :: ns ++ [.rparen]),
      by simp, ?_⟩
    rw [List.map_append]
    exact .append (nested_autoOr c) (nested_paren h2)
  | orderBy => exact hsame _ rfl
  | orderByV2 => exact hsame _ rfl
  | limit n => apply hsame; simp only [Call.run, Cons.limit]; split <;> rfl
  | offset n => apply hsame; simp only [Call.run, Cons.offset]; split <;> rfl
  | page n => apply hsame; simp only [Call.run, Cons.page]; split <;> rfl
  | strictSwitch => exact hsame _ rfl
  | unmarshalSort s => exact hsame _ (sort_frame (s.length + 1) s c).2.2.1
  | unmarshalFQL ts fin =>
    have hr := h (c.strict, ts) (by simp [Call.fqlRuns, Call.fqlRunsAt])
    obtain ⟨d, ns, h1, h2, h3⟩ := fql_nested hr.1 c hr.2
    have := h3 fin []
    rw [List.append_nil] at this
    exact ⟨ns, by simp only [Call.run, this, Cons.fqlLoop]; exact h1.wh, h2⟩
theorem runs_nested (xs : List (Call α)) (c : Cons α) (h : FqlNested c.colmap (fqlRuns xs c.strict)) :
    ∃ ns, (runCalls xs c).filter.where_ = c.filter.where_ ++ ns ∧ Nested (ns.map Node.seg) := by
  cases xs with
  | nil => exact ⟨[], by simp [runCalls], .nil⟩
  | cons x xs =>
    have hf := run_frame x c
    obtain ⟨ns, h1, h2⟩ := run_nested x c (fun r hr => h r (by simp [fqlRuns, hr]))
    obtain ⟨ms, k1, k2⟩ := runs_nested xs (x.run c) (by
      rw [colmap_of_env hf.1, hf.2.1]
      exact fun r hr => h r (by simp [fqlRuns, hr]))
    exact ⟨ns ++ ms, by simp [runCalls, k1, h1], by rw [List.map_append]; exact .append h2 k2⟩
end

/-! ### boolean expressions -/

theorem boolExpr_last {l : List (Seg α)} (h : BoolExpr l) :
    ∃ s, l.getLast? = some s ∧ (s = .cls ∨ ∃ p, s = .pred p) := by
  induction h with
  | pred p => exact ⟨_, rfl, .inr ⟨p, rfl⟩⟩
  | paren => exact ⟨.cls, by rw [List.getLast?_append]; simp, .inl rfl⟩
  | @and a b _ _ _ ih =>
    obtain ⟨s, h1, h2⟩ := ih
    refine ⟨s, ?_, h2⟩
    rw [List.getLast?_append, List.getLast?_cons, h1]; simp
  | @or a b _ _ _ ih =>
    obtain ⟨s, h1, h2⟩ := ih
    refine ⟨s, ?_, h2⟩
    rw [List.getLast?_append, List.getLast?_cons, h1]; simp

theorem lastCan_boolExpr (pre e : List (Node α)) (h : BoolExpr (e.map Node.seg)) :
    lastCan (pre ++ e) = true := by
  obtain ⟨s, h1, h2⟩ := boolExpr_last h
  rw [List.getLast?_map] at h1
  cases he : e.getLast? with
  | none => rw [he] at h1; simp at h1
  | some n =>
    rw [he] at h1
    simp only [Option.map_some, Option.some.injEq] at h1
    unfold lastCan
    rw [List.getLast?_append, he]
    simp only [Option.some_or]
    cases n <;> simp [Node.seg] at h1 <;> subst h1 <;> simp at h2 <;> rfl

inductive Ph | fresh | complete | pending
deriving DecidableEq

/-- Where a group of the WHERE clause that started after `pre` stands. -/
inductive At (pre : List (Node α)) : List (Node α) → Ph → Prop
  | fresh : lastCan pre = false → At pre pre .fresh
  | complete {e} : BoolExpr (e.map Node.seg) → At pre (pre ++ e) .complete
  | pending {e g} : BoolExpr (e.map Node.seg) → (g = .and ∨ g = .or) → At pre (pre ++ e ++ [g]) .pending

theorem at_complete {pre l : List (Node α)} (h : At pre l .complete) :
    ∃ e, BoolExpr (e.map Node.seg) ∧ l = pre ++ e := by
  cases h with
  | complete h => exact ⟨_, h, rfl⟩

theorem at_add_and {pre l : List (Node α)} {ph} (h : At pre l ph) (E : List (Node α))
    (hE : BoolExpr (E.map Node.seg)) (k : Node α) (hk : k = .and ∨ k = .or) :
    At pre (l ++ (if lastCan l then [k] else []) ++ E) .complete := by
  cases h with
  | fresh h => rw [h]; simpa using At.complete hE
  | @complete e h =>
    rw [lastCan_boolExpr _ _ h]
    have : BoolExpr ((e ++ k :: E).map Node.seg) := by
      rcases hk with rfl | rfl
      · simpa [Node.seg] using BoolExpr.and h hE
      · simpa [Node.seg] using BoolExpr.or h hE
    simpa using At.complete (pre := pre) this
  | @pending e g h hg =>
    have hl : lastCan (pre ++ e ++ [g]) = false := by
      rw [lastCan_snoc]; rcases hg with rfl | rfl <;> rfl
    rw [hl]
    have : BoolExpr ((e ++ g :: E).map Node.seg) := by
      rcases hg with rfl | rfl
      · simpa [Node.seg] using BoolExpr.and h hE
      · simpa [Node.seg] using BoolExpr.or h hE
    simpa using At.complete (pre := pre) this

theorem at_bare {pre l : List (Node α)} {ph} (h : At pre l ph) (k : Node α) (hk : k = .and ∨ k = .or) :
    ∃ ph', At pre (l ++ (if lastCan l then [k] else [])) ph' := by
  cases h with
  | fresh h => rw [h]; exact ⟨.fresh, by simpa using At.fresh h⟩
  | complete h =>
    rw [lastCan_boolExpr _ _ h]
    exact ⟨_, At.pending h hk⟩
  | @pending e g h hg =>
    refine ⟨.pending, ?_⟩
    rw [lastCan_snoc]
    have : g.canAndOr = false := by
      rcases hg with rfl | rfl <;> rfl
    rw [this]
    simpa using At.pending h hg

theorem lastCan_push_lparen (l : List (Node α)) : lastCan (l ++ [Node.lparen]) = false := by
  simp [Node.canAndOr]

/-- Parsing a grammatical token stream. -/
theorem fql_expr {ts : List (Tok α)} {cm : List (Bytes × Column α)} {s : List (Seg α)}
    (h : TokExpr cm ts s) : ∀ (c : Cons α), c.colmap = cm →
    ∃ d E, Ext c d ((if lastCan c.filter.where_ then [.and] else []) ++ E) ∧ E.map Node.seg = s ∧
      BoolExpr s ∧ ∀ fin rest, c.fqlLoop fin (ts ++ rest) = d.fqlLoop fin rest := by
  induction h with
  | @rule k cmp v p hp =>
    intro c hc
    simp only [List.singleton_append, Cons.fqlLoop, cmpStr_eq, lookup_eq, hc]
    unfold rulePred at hp
    cases hcol : columnFor cm k with
    | none => rw [hcol] at hp; simp at hp
    | some cl =>
      rw [hcol] at hp
      simp only at hp ⊢
      have key : ∀ w, colPred cl.name (Cmp.sql cmp) w = some p →
          ∃ E, Ext c (c.col cl.name (Cmp.sql cmp) w)
            ((if lastCan c.filter.where_ then [.and] else []) ++ E) ∧ E.map Node.seg = [.pred p] := by
        intro w hw
        rcases col_cases c cl.name (Cmp.sql cmp) w with ⟨n, q, h1, h2, _, h3⟩ | ⟨h1, _⟩
        · rw [hw] at h1
          injection h1 with h1
          subst h1
          exact ⟨[n], by rw [h3]; exact (Ext.autoAnd c).trans (Ext.push _ n), by simp [h2]⟩
        · rw [hw] at h1; cases h1
      cases hcv : cl.convert with
      | none =>
        rw [hcv] at hp
        obtain ⟨E, h1, h2⟩ := key _ hp
        exact ⟨_, E, h1, h2, .pred p, fun _ _ => rfl⟩
      | some f =>
        rw [hcv] at hp
        simp only at hp
        cases hf : f (v.getD .nil) with
        | error m => rw [hf] at hp; simp at hp
        | ok w =>
          rw [hf] at hp
          obtain ⟨E, h1, h2⟩ := key _ hp
          exact ⟨_, E, h1, h2, .pred p, fun _ _ => by simp [hf]⟩
  | @paren e s he ih =>
    intro c hc
    obtain ⟨d, E, h1, h2, h3, h4⟩ := ih (c.autoAnd.push .lparen) (by simpa using hc)
    rw [push_where, lastCan_push_lparen] at h1
    refine ⟨d.push .rparen, .lparen :: E ++ [.rparen], ?_, ?_, .paren h3, ?_⟩
    · have := (((Ext.autoAnd c).trans (Ext.push _ .lparen)).trans h1).trans (Ext.push _ .rparen)
      simpa using this
    · simp [Node.seg, h2]
    · intro fin rest
      simp only [List.cons_append, List.append_assoc, Cons.fqlLoop]
      rw [h4]; rfl
  | @and a b s t ha hb iha ihb =>
    intro c hc
    obtain ⟨d, E, h1, h2, h3, h4⟩ := iha c hc
    obtain ⟨d', F, k1, k2, k3, k4⟩ := ihb (d.push .and) (by
      rw [push_colmap, colmap_of_env h1.env, hc])
    rw [push_where, lastCan_snoc] at k1
    refine ⟨d', E ++ .and :: F, ?_, by simp [h2, k2, Node.seg], .and h3 k3, ?_⟩
    · have := (h1.trans (Ext.push _ .and)).trans k1
      simpa [Node.canAndOr] using this
    · intro fin rest
      rw [List.append_assoc, h4, List.cons_append, Cons.fqlLoop, k4]
  | @or a b s t ha hb iha ihb =>
    intro c hc
    obtain ⟨d, E, h1, h2, h3, h4⟩ := iha c hc
    obtain ⟨d', F, k1, k2, k3, k4⟩ := ihb (d.push .or) (by
      rw [push_colmap, colmap_of_env h1.env, hc])
    rw [push_where, lastCan_snoc] at k1
    refine ⟨d', E ++ .or :: F, ?_, by simp [h2, k2, Node.seg], .or h3 k3, ?_⟩
    · have := (h1.trans (Ext.push _ .or)).trans k1
      simpa [Node.canAndOr] using this
    · intro fin rest
      rw [List.append_assoc, h4, List.cons_append, Cons.fqlLoop, k4]

def FqlExpr (cm : List (Bytes × Column α)) (runs : List (Bool × List (Tok α))) : Prop :=
  ∀ r ∈ runs, ∃ s, TokExpr cm r.2 s

mutual
/-- A call adding something completes the group; others do nothing unless they are bare. -/
theorem run_at (x : Call α) (c : Cons α) (pre : List (Node α)) (ph : Ph)
    (hq : FqlExpr c.colmap (x.fqlRuns c.strict)) (hp : x.Proper c.tscol)
    (h : At pre c.filter.where_ ph) :
    (x.adds c.tscol → At pre (x.run c).filter.where_ .complete) ∧
    (¬ x.adds c.tscol → ¬ x.bare → (x.run c).filter.where_ = c.filter.where_) ∧
    (x.bare → ∃ ph', At pre (x.run c).filter.where_ ph') := by
  have hpush : ∀ (n : Node α) p, n.seg = .pred p → At pre (c.autoAnd.push n).filter.where_ .complete := by
    intro n p hn
    rw [push_where, autoAnd_where]
    exact at_add_and h [n] (by simpa [hn] using BoolExpr.pred p) .and (.inl rfl)
  have hsame : ∀ d : Cons α, d.filter.where_ = c.filter.where_ → ¬ x.adds c.tscol → ¬ x.bare →
      (x.adds c.tscol → At pre d.filter.where_ .complete) ∧
      (¬ x.adds c.tscol → ¬ x.bare → d.filter.where_ = c.filter.where_) ∧
      (x.bare → ∃ ph', At pre d.filter.where_ ph') :=
    fun d hd h1 h2 => ⟨fun k => absurd k h1, fun _ _ => hd, fun k => absurd k h2⟩
  cases x with
  | col column op v =>
    rcases col_cases c column op v with ⟨n, p, h1, h2, h4, h3⟩ | ⟨h1, h2⟩
    · refine ⟨fun _ => ?_, fun k => absurd (by simp [Call.adds, h1]) k, fun k => absurd k (by simp [Call.bare])⟩
      simp only [Call.run, h3]
      exact hpush n p h2
    · refine ⟨fun k => absurd h1 (by simpa [Call.adds] using k), fun _ _ => ?_, fun k => absurd k (by simp [Call.bare])⟩
      -- an ineffective Col call of a proper sequence does nothing at all
      simp only [Call.run]
      simp only [Call.Proper] at hp
      unfold colPred at h1
      unfold Cons.col
      by_cases u1 : Cons.toUpper op = b!"ANY"
      · simp only [u1, if_true] at h1 ⊢
        cases v <;> simp at h1 ⊢
      · by_cases u2 : Cons.toUpper op = b!"IN"
        · simp only [u2, if_true] at h1 ⊢
          cases v <;> simp at h1 ⊢
        · simp only [u1, u2, if_false, or_false] at h1 hp
          cases v with
          | nil =>
            rcases hp (.inl rfl) with e | e
            · simp [e] at h1
            · simp [e] at h1
          | bool b =>
            rcases hp (.inr ⟨b, rfl⟩) with e | e
            · simp [e] at h1
            · simp [e] at h1
          | slice k xs => simp at h1
          | other a => simp at h1
  | colIn column xs =>
    exact ⟨fun _ => hpush _ _ rfl, fun k => absurd trivial k, fun k => absurd k id⟩
  | colAny column k xs =>
    exact ⟨fun _ => hpush _ _ rfl, fun k => absurd trivial k, fun k => absurd k id⟩
  | textSearch s =>
    simp only [Call.run, Cons.textSearch, Call.adds, Call.bare]
    by_cases ht : c.tscol = []
    · simp [ht]
    · have : c.tscol.length > 0 := List.length_pos_iff.2 ht
      simp only [this, if_true]
      exact ⟨fun _ => hpush _ _ rfl, fun k => absurd ht k, fun k => absurd k id⟩
  | and =>
    refine ⟨fun k => absurd k id, fun _ k => absurd trivial k, fun _ => ?_⟩
    simp only [Call.run, autoAnd_where]
    exact at_bare h .and (.inl rfl)
  | or =>
    refine ⟨fun k => absurd k id, fun _ k => absurd trivial k, fun _ => ?_⟩
    simp only [Call.run, autoOr_where]
    exact at_bare h .or (.inr rfl)
  | andNest n =>
    refine ⟨fun _ => ?_, fun k => absurd trivial k, fun k => absurd k id⟩
    simp only [Call.Proper] at hp
    have := runs_at n (c.autoAnd.push .lparen) (c.autoAnd.push .lparen).filter.where_ .fresh
      (by simpa [Call.fqlRuns] using hq) (by simpa using hp.1)
      (At.fresh (by rw [push_where]; exact lastCan_push_lparen _))
    have := this.1 (by simpa using hp.2)
    simp only [Call.run, push_where]
    obtain ⟨e, he, heq⟩ := at_complete this
    · rw [heq]
      have hE : BoolExpr ((.lparen :: e ++ [.rparen] : List (Node α)).map Node.seg) := by
        simpa [Node.seg] using BoolExpr.paren he
      have := at_add_and h _ hE .and (.inl rfl)
      simpa [autoAnd_where] using this
  | orNest n =>
    refine ⟨fun _ => ?_, fun k => absurd trivial k, fun k => absurd k id⟩
    simp only [Call.Proper] at hp
    have := runs_at n (c.autoOr.push .lparen) (c.autoOr.push .lparen).filter.where_ .fresh
      (by simpa [Call.fqlRuns] using hq) (by simpa using hp.1)
      (At.fresh (by rw [push_where]; exact lastCan_push_lparen _))
    have := this.1 (by simpa using hp.2)
    simp only [Call.run, push_where]
    obtain ⟨e, he, heq⟩ := at_complete this
    · rw [heq]
      have hE : BoolExpr ((.lparen :: e ++ [.rparen] : List (Node α)).map Node.seg) := by
        simpa [Node.seg] using BoolExpr.paren he
      have := at_add_and h _ hE .or (.inr rfl)
      simpa [autoOr_where] using this
  | orderBy => exact hsame _ rfl (fun k => k) (fun k => k)
  | orderByV2 => exact hsame _ rfl (fun k => k) (fun k => k)
  | limit n =>
    apply hsame _ _ (fun k => k) (fun k => k); simp only [Call.run, Cons.limit]; split <;> rfl
  | offset n =>
    apply hsame _ _ (fun k => k) (fun k => k); simp only [Call.run, Cons.offset]; split <;> rfl
  | page n =>
    apply hsame _ _ (fun k => k) (fun k => k); simp only [Call.run, Cons.page]; split <;> rfl
  | strictSwitch => exact hsame _ rfl (fun k => k) (fun k => k)
  | unmarshalSort s =>
    exact hsame _ (sort_frame (s.length + 1) s c).2.2.1 (fun k => k) (fun k => k)
  | unmarshalFQL ts fin =>
    refine ⟨fun _ => ?_, fun k => absurd trivial k, fun k => absurd k id⟩
    obtain ⟨s, hs⟩ := hq (c.strict, ts) (by simp [Call.fqlRuns, Call.fqlRunsAt])
    obtain ⟨d, E, h1, h2, h3, h4⟩ := fql_expr hs c rfl
    have := h4 fin []
    rw [List.append_nil] at this
    simp only [Call.run, this, Cons.fqlLoop]
    rw [h1.wh, ← List.append_assoc]
    exact at_add_and h E (by rw [h2]; exact h3) .and (.inl rfl)
theorem runs_at (xs : List (Call α)) (c : Cons α) (pre : List (Node α)) (ph : Ph)
    (hq : FqlExpr c.colmap (fqlRuns xs c.strict)) (hp : Proper c.tscol xs)
    (h : At pre c.filter.where_ ph) :
    ((∃ y ∈ xs, y.adds c.tscol) → At pre (runCalls xs c).filter.where_ .complete) ∧
    ((∀ y ∈ xs, ¬ y.adds c.tscol) → (runCalls xs c).filter.where_ = c.filter.where_) := by
  cases xs with
  | nil => exact ⟨fun ⟨y, hy, _⟩ => by simp at hy, fun _ => rfl⟩
  | cons x xs =>
    simp only [Proper] at hp
    have hf := run_frame x c
    have hx := run_at x c pre ph (fun r hr => hq r (by simp [fqlRuns, hr])) hp.1 h
    have hq' : FqlExpr (x.run c).colmap (fqlRuns xs (x.run c).strict) := by
      rw [colmap_of_env hf.1, hf.2.1]
      exact fun r hr => hq r (by simp [fqlRuns, hr])
    have ht : (x.run c).tscol = c.tscol := tscol_of_env hf.1
    have hp' : Proper (x.run c).tscol xs := by rw [ht]; exact hp.2.2
    simp only [runCalls]
    by_cases ha : x.adds c.tscol
    · have h1 := hx.1 ha
      have ih := runs_at xs (x.run c) pre .complete hq' hp' h1
      rw [ht] at ih
      refine ⟨fun _ => ?_, fun k => absurd ha (k x (by simp))⟩
      by_cases hex : ∃ y ∈ xs, y.adds c.tscol
      · exact ih.1 hex
      · rw [ih.2 (fun y hy hc => hex ⟨y, hy, hc⟩)]; exact h1
    · by_cases hb : x.bare
      · obtain ⟨ph', h1⟩ := hx.2.2 hb
        have ih := runs_at xs (x.run c) pre ph' hq' hp' h1
        rw [ht] at ih
        have hex := hp.2.1 hb
        refine ⟨fun _ => ih.1 hex, fun k => ?_⟩
        obtain ⟨y, hy, hc⟩ := hex
        exact absurd hc (k y (by simp [hy]))
      · have h1 := hx.2.1 ha hb
        have ih := runs_at xs (x.run c) pre ph hq' hp' (by rw [h1]; exact h)
        rw [ht] at ih
        refine ⟨fun ⟨y, hy, hc⟩ => ?_, fun k => ?_⟩
        · rcases List.mem_cons.1 hy with e | e
          · subst e; exact absurd hc ha
          · exact ih.1 ⟨y, e, hc⟩
        · rw [ih.2 (fun y hy => k y (by simp [hy]))]; exact h1
end

/-! ### shapes -/

def Node.shape : Node α → Node Unit
  | .binary c op _ => .binary c op (.other ())
  | .unary c p => .unary c p
  | .text c _ => .text c []
  | .and => .and
  | .or => .or
  | .lparen => .lparen
  | .rparen => .rparen
  | .isIn c xs => .isIn c (List.replicate xs.length ())
  | .any c k _ => .any c k []

def Piece.shape : Piece α → Piece Unit
  | .lit s => .lit s
  | .hole _ => .hole (.text [])

theorem render_shape (ps : List (Piece α)) (pos : Nat) : render (ps.map Piece.shape) pos = render ps pos := by
  induction ps generalizing pos with
  | nil => rfl
  | cons p ps ih => cases p <;> simp [render, Piece.shape, ih]

theorem holes_shape (ps : List (Piece α)) : (holes (ps.map Piece.shape)).length = (holes ps).length := by
  induction ps with
  | nil => rfl
  | cons p ps ih => cases p <;> simp [holes, Piece.shape, ih]

theorem commaHoles_shape (xs : List α) : (commaHoles xs).map Piece.shape =
    (commaHoles (List.replicate xs.length ())).map Piece.shape := by
  induction xs with
  | nil => rfl
  | cons a r ih =>
    cases r with
    | nil => rfl
    | cons b r =>
      simp only [commaHoles, List.map_cons, Piece.shape]
      simp only [List.length_cons, List.replicate_succ, commaHoles, List.map_cons, Piece.shape] at ih ⊢
      rw [ih]

theorem pieces_shape (n : Node α) :
    n.seg.pieces.map Piece.shape = n.shape.seg.pieces.map Piece.shape := by
  cases n with
  | isIn c xs =>
    simp only [Node.seg, Seg.pieces, Pred.pieces, Node.shape, List.map_cons, List.map_append]
    rw [commaHoles_shape]
    rfl
  | _ => rfl

theorem nodes_pieces_shape (ns : List (Node α)) :
    ((ns.map Node.seg).flatMap Seg.pieces).map Piece.shape =
    (((ns.map Node.shape).map Node.seg).flatMap Seg.pieces).map Piece.shape := by
  induction ns with
  | nil => rfl
  | cons n ns ih => simp only [List.map_cons, List.flatMap_cons, List.map_append, ih, pieces_shape n]

theorem shape_canAndOr (n : Node α) : n.shape.canAndOr = n.canAndOr := by cases n <;> rfl

theorem lastCan_shape (l : List (Node α)) : lastCan (l.map Node.shape) = lastCan l := by
  unfold lastCan
  rw [List.getLast?_map]
  cases l.getLast? with
  | none => rfl
  | some n => exact shape_canAndOr n

/-- Same text-relevant state. -/
structure Same (c d : Cons α) : Prop where
  wh : c.filter.where_.map Node.shape = d.filter.where_.map Node.shape
  tail : c.tail = d.tail
  env : c.env = d.env
  strict : c.strict = d.strict

theorem Same.push {c d : Cons α} (h : Same c d) (n m : Node α) (hn : n.shape = m.shape) :
    Same (c.push n) (d.push m) :=
  ⟨by simp [h.wh, hn], by simpa using h.tail, by simpa [env_push] using h.env, by simpa using h.strict⟩

theorem Same.canAndOr {c d : Cons α} (h : Same c d) : c.canAndOr = d.canAndOr := by
  rw [canAndOr_eq, canAndOr_eq, ← lastCan_shape, h.wh, lastCan_shape]

theorem Same.autoAnd {c d : Cons α} (h : Same c d) : Same c.autoAnd d.autoAnd := by
  unfold Cons.autoAnd
  rw [h.canAndOr]
  split
  · exact h.push _ _ rfl
  · exact h

theorem Same.autoOr {c d : Cons α} (h : Same c d) : Same c.autoOr d.autoOr := by
  unfold Cons.autoOr
  rw [h.canAndOr]
  split
  · exact h.push _ _ rfl
  · exact h

theorem Same.col {c d : Cons α} (h : Same c d) (column op : Bytes) (v w : Val α)
    (hv : v.shape op = w.shape op) : Same (c.col column op v) (d.col column op w) := by
  unfold Val.shape at hv
  unfold Cons.col Cons.colAny Cons.colIn
  by_cases h1 : Cons.toUpper op = b!"ANY"
  · simp only [h1, if_true] at hv ⊢
    cases v <;> cases w <;> simp at hv ⊢
    all_goals try exact h
    exact h.autoAnd.push _ _ (by simp [Node.shape, hv])
  · by_cases h2 : Cons.toUpper op = b!"IN"
    · simp only [h2, if_true] at hv ⊢
      cases v <;> cases w <;> simp at hv ⊢
      all_goals try exact h
      exact h.autoAnd.push _ _ (by simp [Node.shape, hv])
    · simp only [h1, h2, if_false] at hv ⊢
      cases v <;> cases w <;> simp at hv
      · by_cases e1 : op = b!"="
        · simp only [e1, if_true]; exact h.autoAnd.push _ _ rfl
        · by_cases e2 : op = b!"<>"
          · simp only [e2]; exact h.autoAnd.push _ _ rfl
          · simp [e1, e2]; exact h.autoAnd
      · rename_i b1 b2
        subst hv
        cases b1
        all_goals
          by_cases e1 : op = b!"="
          · simp only [e1, if_true]; exact h.autoAnd.push _ _ rfl
          · by_cases e2 : op = b!"<>"
            · simp only [e2]; exact h.autoAnd.push _ _ rfl
            · simp [e1, e2]; exact h.autoAnd
      · exact h.autoAnd.push _ _ rfl
      · exact h.autoAnd.push _ _ rfl
      · exact h.autoAnd.push _ _ rfl
      · exact h.autoAnd.push _ _ rfl

theorem columnFor_mem {cm : List (Bytes × Column α)} {key : Bytes} {cl : Column α}
    (h : columnFor cm key = some cl) : ∃ k, (k, cl) ∈ cm := by
  unfold columnFor at h
  cases hf : cm.find? (fun e => e.1 = key) with
  | none => rw [hf] at h; simp at h
  | some e =>
    rw [hf] at h
    simp only [Option.map_some, Option.some.injEq] at h
    exact ⟨e.1, by have := List.mem_of_find?_eq_some hf; rw [← h]; exact this⟩

theorem Same.fql (fin : Option Err) (ts us : List (Tok α)) {c d : Cons α} (h : Same c d)
    (hc : ConvertersOK c.colmap) (he : ts.map Tok.shape = us.map Tok.shape) :
    Same (c.fqlLoop fin ts).1 (d.fqlLoop fin us).1 := by
  induction ts generalizing us c d with
  | nil =>
    cases us with
    | nil => exact h
    | cons => simp at he
  | cons t ts ih =>
    cases us with
    | nil => simp at he
    | cons u us =>
      simp only [List.map_cons, List.cons.injEq] at he
      obtain ⟨he1, he2⟩ := he
      cases t with
      | lparen =>
        cases u <;> simp [Tok.shape] at he1
        simp only [Cons.fqlLoop]
        exact ih us (h.autoAnd.push _ _ rfl) (by simpa using hc) he2
      | rparen =>
        cases u <;> simp [Tok.shape] at he1
        exact ih us (h.push _ _ rfl) hc he2
      | and =>
        cases u <;> simp [Tok.shape] at he1
        exact ih us (h.push _ _ rfl) hc he2
      | or =>
        cases u <;> simp [Tok.shape] at he1
        exact ih us (h.push _ _ rfl) hc he2
      | rule key cmp val =>
        cases u with
        | rule key' cmp' val' =>
          simp only [Tok.shape, Tok.rule.injEq, Option.some.injEq] at he1
          obtain ⟨rfl, rfl, he3⟩ := he1
          simp only [Cons.fqlLoop, cmpStr_eq, lookup_eq]
          rw [← colmap_of_env h.env, ← h.strict]
          cases hcol : columnFor c.colmap key with
          | none =>
            simp only
            split
            · exact h
            · exact ih us h hc he2
          | some cl =>
            simp only
            obtain ⟨k, hk⟩ := columnFor_mem hcol
            have hcm : ∀ v, (c.col cl.name (Cmp.sql cmp) v).colmap = c.colmap :=
              fun v => colmap_of_env (col_env c cl.name (Cmp.sql cmp) v).1
            cases hcv : cl.convert with
            | none =>
              simp only
              exact ih us (h.col _ _ _ _ he3) (by rw [hcm]; exact hc) he2
            | some f =>
              simp only
              have hok := hc _ hk f hcv cmp _ _ he3
              cases hf1 : f (val.getD .nil) with
              | error m =>
                cases hf2 : f (val'.getD .nil) with
                | error m' => exact h
                | ok w => rw [hf1, hf2] at hok; exact absurd hok id
              | ok v =>
                cases hf2 : f (val'.getD .nil) with
                | error m' => rw [hf1, hf2] at hok; exact absurd hok id
                | ok w =>
                  rw [hf1, hf2] at hok
                  exact ih us (h.col _ _ _ _ hok) (by rw [hcm]; exact hc) he2
        | _ => simp [Tok.shape] at he1

theorem Same.sort (n : Nat) (s : Bytes) {c d : Cons α} (h : Same c d) :
    Same (Cons.sortLoop n c s).1 (Cons.sortLoop n d s).1 := by
  induction n generalizing c d s with
  | zero => exact h
  | succ n ih =>
    cases s with
    | nil => exact h
    | cons x xs =>
      rw [Cons.sortLoop, Cons.sortLoop]
      dsimp only
      have hl : ∀ key, c.lookup key = d.lookup key := fun key => by
        rw [lookup_eq, lookup_eq, colmap_of_env h.env]
      rw [hl, h.strict]
      split
      · split
        · apply ih
          have ht := h.tail
          simp only [Cons.tail, Prod.mk.injEq] at ht
          exact ⟨h.wh, by simp [Cons.tail, Cons.orderByV2, ht], h.env, h.strict⟩
        · split
          · exact h
          · exact ih _ h
      · exact ih _ h

mutual
theorem Same.run (x y : Call α) {c d : Cons α} (h : Same c d) (hc : ConvertersOK c.colmap)
    (he : x.shape = y.shape) : Same (x.run c) (y.run d) := by
  have ht := h.tail
  simp only [Cons.tail, Prod.mk.injEq] at ht
  cases x with
  | col column op v =>
    cases y <;> simp [Call.shape] at he
    obtain ⟨rfl, rfl, he⟩ := he
    exact h.col _ _ _ _ he
  | colIn column xs =>
    cases y <;> simp [Call.shape] at he
    obtain ⟨rfl, he⟩ := he
    exact h.autoAnd.push _ _ (by simp [Node.shape, he])
  | colAny column k xs =>
    cases y <;> simp [Call.shape] at he
    obtain ⟨rfl, rfl⟩ := he
    exact h.autoAnd.push _ _ rfl
  | textSearch s =>
    cases y <;> simp [Call.shape] at he
    simp only [Call.run, Cons.textSearch, ← tscol_of_env h.env]
    split
    · exact h.autoAnd.push _ _ rfl
    · exact h
  | and =>
    cases y <;> simp [Call.shape] at he
    exact h.autoAnd
  | or =>
    cases y <;> simp [Call.shape] at he
    exact h.autoOr
  | andNest n =>
    cases y <;> simp [Call.shape] at he
    simp only [Call.run]
    exact (Same.runs n _ (h.autoAnd.push _ _ rfl) (by simpa using hc) he).push _ _ rfl
  | orNest n =>
    cases y <;> simp [Call.shape] at he
    simp only [Call.run]
    exact (Same.runs n _ (h.autoOr.push _ _ rfl) (by simpa using hc) he).push _ _ rfl
  | orderBy =>
    cases y <;> simp [Call.shape] at he
    obtain ⟨rfl, rfl, rfl⟩ := he
    exact ⟨h.wh, by simp [Cons.tail, Call.run, Cons.orderBy, ht], h.env, h.strict⟩
  | orderByV2 =>
    cases y <;> simp [Call.shape] at he
    obtain ⟨rfl, rfl, rfl, rfl⟩ := he
    exact ⟨h.wh, by simp [Cons.tail, Call.run, Cons.orderByV2, ht], h.env, h.strict⟩
  | limit n =>
    cases y <;> simp [Call.shape] at he
    subst he
    simp only [Call.run, Cons.limit]
    split
    · exact ⟨h.wh, by simp [Cons.tail, ht], h.env, h.strict⟩
    · exact h
  | offset n =>
    cases y <;> simp [Call.shape] at he
    subst he
    simp only [Call.run, Cons.offset]
    split
    · exact ⟨h.wh, by simp [Cons.tail, ht], h.env, h.strict⟩
    · exact h
  | page n =>
    cases y <;> simp [Call.shape] at he
    subst he
    simp only [Call.run, Cons.page, ← ht.2.1]
    split
    · exact ⟨h.wh, by simp [Cons.tail, ht], h.env, h.strict⟩
    · exact h
  | strictSwitch =>
    cases y <;> simp [Call.shape] at he
    exact ⟨h.wh, h.tail, h.env, by simp [Call.run, h.strict]⟩
  | unmarshalSort s =>
    cases y <;> simp [Call.shape] at he
    subst he
    exact h.sort _ _
  | unmarshalFQL ts fin =>
    cases y <;> simp [Call.shape] at he
    obtain ⟨he, rfl⟩ := he
    exact h.fql fin _ _ hc he
theorem Same.runs (xs ys : List (Call α)) {c d : Cons α} (h : Same c d) (hc : ConvertersOK c.colmap)
    (he : shapes xs = shapes ys) : Same (runCalls xs c) (runCalls ys d) := by
  cases xs with
  | nil =>
    cases ys with
    | nil => exact h
    | cons => simp [shapes] at he
  | cons x xs =>
    cases ys with
    | nil => simp [shapes] at he
    | cons y ys =>
      simp only [shapes, List.cons.injEq] at he
      simp only [runCalls]
      exact Same.runs xs ys (Same.run x y h hc he.1)
        (by rw [colmap_of_env (run_frame x c).1]; exact hc) he.2
end

theorem tailText_of_tail {c d : Cons α} (h : c.tail = d.tail) : tailText c.filter = tailText d.filter := by
  simp only [Cons.tail, Prod.mk.injEq] at h
  simp [tailText, h]

theorem Same.toSQL {c d : Cons α} (h : Same c d) (pos : Nat) :
    (c.filter.toSQL pos).map (·.1) = (d.filter.toSQL pos).map (·.1) := by
  have hp : (wherePieces (c.filter.where_.map Node.seg)).map Piece.shape =
      (wherePieces (d.filter.where_.map Node.seg)).map Piece.shape := by
    have h1 := nodes_pieces_shape c.filter.where_
    rw [h.wh, ← nodes_pieces_shape] at h1
    have h2 := congrArg List.length h.wh
    simp only [List.length_map] at h2
    unfold wherePieces
    cases hc : c.filter.where_ with
    | nil =>
      cases hd : d.filter.where_ with
      | nil => rfl
      | cons => rw [hc, hd] at h2; simp at h2
    | cons =>
      cases hd : d.filter.where_ with
      | nil => rw [hc, hd] at h2; simp at h2
      | cons => rw [hc, hd] at h1; simpa [Piece.shape] using h1
  have e1 := holes_shape (wherePieces (c.filter.where_.map Node.seg))
  rw [hp, holes_shape] at e1
  have e2 := render_shape (wherePieces (c.filter.where_.map Node.seg)) pos
  rw [hp, render_shape] at e2
  rw [toSQL_eq, toSQL_eq, tailText_of_tail h.tail]
  unfold FilterS.countSQL
  rw [whereSQL_eq, whereSQL_eq]
  simp only [e1, e2]
  split <;> rfl

end Verif.Filter
