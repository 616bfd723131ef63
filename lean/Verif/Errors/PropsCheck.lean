import Verif.Errors.PropsDb
import Verif.Analysis.PropsCache

/-
C79, third part: every error with which Check refuses a query or a filter is made at one of the places of
`Raised`, so that it has a message.
-/
namespace Verif.Errors
open Verif.Analysis Verif.Postgres

theorem bind_err {ε α β : Type} {x : Res ε α} {f : α → Res ε β} {e : ε} (h : x.bind f = .err e) :
    x = .err e ∨ ∃ a, x = .ok a ∧ f a = .err e := by
  cases x with
  | ok a => exact .inr ⟨a, rfl, h⟩
  | err e' => simp only [Res.bind_err, Res.err.injEq] at h; exact .inl (by rw [h])
  | panic => simp at h
theorem map_err {ε α β : Type} {x : Res ε α} {f : α → β} {e : ε} (h : x.map f = .err e) : x = .err e := by
  cases x with
  | ok a => simp at h
  | err e' => simp only [Res.map_err, Res.err.injEq] at h; rw [h]
  | panic => simp at h
theorem mapP_err {ε α β : Type} {f : α → Res ε β} {xs : List α} {e : ε} (h : mapP f xs = .err e) :
    ∃ x ∈ xs, f x = .err e := by
  induction xs with
  | nil => cases h
  | cons x xs ih =>
    rcases bind_err h with h | ⟨y, _, h⟩
    · exact ⟨x, by simp, h⟩
    · obtain ⟨z, hz, h⟩ := ih (map_err h)
      exact ⟨z, by simp [hz], h⟩
theorem refuseIf_err {b : Bool} {e e' : DbErr} (h : refuseIf b e = .err e') : e' = e := by
  unfold refuseIf at h
  split at h
  · simp only [Res.err.injEq] at h; exact h.symm
  · cases h

/-- The checker can raise the code. -/
def CanRaise (env : ErrEnv) (cat : Catalog) (e : DbErr) : Prop :=
  ∃ c d, c.cat = cat ∧ Raised env c e d

variable {env : ErrEnv} {c : Checker} {e : DbErr}

theorem raise_load {cat : Catalog} {rid : RelIdent} (h : loadRelation cat rid = .err e) :
    CanRaise env cat e := by
  have base : ∃ c : Checker, c.cat = cat :=
    ⟨{ cat := cat, rid := rid, rel := { id := rid, relKind := 'r', columns := [], constraints := [], indexes := [] }, relMap := [] }, rfl⟩
  obtain ⟨c, hc⟩ := base
  unfold loadRelation at h
  split at h
  · simp only [Res.err.injEq] at h
    subst h
    exact ⟨c, _, hc, .noRelation (rid := rid)⟩
  · rcases bind_err h with h | ⟨cols, _, h⟩
    · obtain ⟨r, _, h⟩ := mapP_err h
      unfold loadColumn at h
      split at h
      · rename_i ht
        simp only [Res.err.injEq] at h
        subst h
        exact ⟨c, _, hc, .noType (rid := rid) (r := r) (hc ▸ ht)⟩
      · cases h
    · obtain ⟨r, _, h⟩ := mapP_err (map_err h)
      exfalso
      have h := map_err h
      unfold parseIndexExpr at h
      have loop : ∀ s st, ∀ e : DbErr, ixLoop st s ≠ .err e := by
        intro s
        induction s with
        | nil => intro st e h; simp [ixLoop] at h
        | cons x xs ih =>
          intro st e h
          simp only [ixLoop] at h
          split at h
          · cases h
          · cases h
          · split at h
            · cases h
            · exact ih _ _ (map_err h)
      split at h
      · cases h
      · exact loop _ _ _ h

theorem raise_find {cid : ColIdent} (h : findColumn c cid = .err e) : CanRaise env c.cat e :=
  ⟨c, _, rfl, .find h⟩

theorem raise_relColumn {rel : Relation} {cid : ColIdent} (h : relColumn rel cid = .err e) :
    CanRaise env c.cat e := by
  unfold relColumn at h
  split at h
  · rename_i hf
    simp only [Res.err.injEq] at h
    subst h
    exact ⟨c, _, rfl, .noColumn (rid := {}) hf⟩
  · cases h

theorem raise_columns {cids : List ColIdent} (h : checkColumns c cids = .err e) : CanRaise env c.cat e := by
  obtain ⟨_, _, h⟩ := mapP_err (map_err h)
  exact raise_find h

theorem raise_default {cids : List ColIdent} (h : checkDefault c cids = .err e) :
    CanRaise env c.cat e := by
  obtain ⟨cid, _, h⟩ := mapP_err (map_err h)
  rcases bind_err h with h | ⟨col, _, h⟩
  · exact raise_relColumn h
  · have := refuseIf_err h
    subst this
    exact ⟨c, _, rfl, .column (rel := c.rel) (cid := cid) (col := col) (by simp)⟩

theorem docConv_err {a b : Bool} {t : TypeInfo} {s : Bytes} {e e' : DbErr}
    (h : docConv a b t s e = .err e') : e' = e := by
  unfold docConv at h
  repeat' split at h
  all_goals first | (simp only [Res.err.injEq] at h; exact h.symm) | cases h

theorem tableConv_err {cat : Catalog} {col : Column} {t : TypeInfo} {p : CompEntry → Bytes} {e e' : DbErr}
    (h : tableConv cat col t p e = .err e') : e' = e := by
  rcases bind_err h with h | ⟨b, _, h⟩
  · unfold isLength1 at h
    split at h <;> cases h
  · split at h
    · cases h
    · simp only [Res.err.injEq] at h; exact h.symm

theorem readConv_err {cat : Catalog} {f : FieldInfo} {col : Column} (h : readConv cat f col = .err e) :
    e = .columnFieldTypeRead := by
  unfold readConv at h
  split at h
  · simp only [Res.err.injEq] at h; exact h.symm
  · split at h
    · cases h
    · split at h
      · exact docConv_err h
      · split at h
        · cases h
        · split at h
          · exact docConv_err h
          · exact tableConv_err h

theorem writeConv_err {cat : Catalog} {f : FieldInfo} {col : Column} (h : writeConv cat f col = .err e) :
    e = .columnFieldTypeWrite := by
  unfold writeConv at h
  split at h
  · cases h
  · split at h
    · exact docConv_err h
    · split at h
      · exact docConv_err h
      · exact tableConv_err h

theorem raise_read {f : FieldInfo} {s : Bool} (h : checkRead c f s = .err e) : CanRaise env c.cat e := by
  unfold checkRead at h
  split at h
  · rename_i hf
    split at h
    · simp only [Res.err.injEq] at h
      subst h
      exact ⟨c, _, rfl, .noColumn (rid := {}) hf⟩
    · cases h
  · rename_i col hf
    have := readConv_err (map_err h)
    subst this
    exact ⟨c, _, rfl, .column (rel := c.rel) (cid := f.colIdent) (col := col) (by simp)⟩

theorem raise_reads {fs : List FieldInfo} {s : FieldInfo → Bool} {g : List (List FieldRead) → List FieldRead}
    (h : (mapP (fun f => checkRead c f (s f)) fs).map g = .err e) : CanRaise env c.cat e := by
  obtain ⟨_, _, h⟩ := mapP_err (map_err h)
  exact raise_read h

theorem raise_return {fs : List FieldInfo} {l : Option ColIdentList} (h : checkReturn c fs l = .err e) :
    CanRaise env c.cat e := by
  cases l with
  | none => cases h
  | some l =>
    simp only [checkReturn] at h
    split at h
    · exact raise_reads (s := fun _ => false) h
    · rcases bind_err h with h | ⟨sel, _, h⟩
      · obtain ⟨cid, _, h⟩ := mapP_err h
        unfold findQueryField at h
        split at h
        · cases h
        · exact raise_find (map_err h)
      · exact raise_reads (s := fun _ => true) h

theorem raise_result {r : Option (Bytes × RelType)} (h : checkResult c r = .err e) :
    CanRaise env c.cat e := by
  cases r with
  | none => cases h
  | some r => exact raise_reads (s := fun _ => true) h

theorem raise_write {i : Nat} {f : FieldInfo} (h : checkWrite c i f = .err e) : CanRaise env c.cat e := by
  unfold checkWrite at h
  split at h
  · cases h
  · rename_i col _
    rcases bind_err h with h | ⟨_, _, h⟩
    · have := refuseIf_err h
      subst this
      exact ⟨c, _, rfl, .column (rel := c.rel) (cid := f.colIdent) (col := col) (by simp)⟩
    · have := writeConv_err (map_err h)
      subst this
      exact ⟨c, _, rfl, .column (rel := c.rel) (cid := f.colIdent) (col := col) (by simp)⟩

theorem checkWrite_none {i : Nat} {f : FieldInfo} (h : checkWrite c i f = .ok none) :
    findRelColumn c.rel f.colIdent.name = none := by
  unfold checkWrite at h
  split at h
  · assumption
  · exfalso
    simp only [Res.bind_eq_ok, Res.map_eq_ok] at h
    obtain ⟨_, _, _, _, h⟩ := h
    cases h

theorem raise_rel {q : Query} (h : checkRel c q = .err e) : CanRaise env c.cat e := by
  unfold checkRel at h
  split at h
  · cases h
  · split at h
    · exact raise_reads (s := fun f => !q.optional.any fun l => l.contains f.colIdent) (map_err h)
    · split at h
      · obtain ⟨x, _, h⟩ := mapP_err (map_err (map_err h))
        rcases bind_err h with h | ⟨w, hw, h⟩
        · exact raise_write h
        · cases w with
          | none =>
            simp only at h
            split at h
            · cases h
            · simp only [Res.err.injEq] at h
              subst h
              exact ⟨c, _, rfl, .noColumn (rid := {}) (checkWrite_none hw)⟩
          | some w => cases h
      · cases h

theorem raise_colCondOn {col : Column} {cc : ColCond} {w : Bool}
    (h : checkColCondOn c col cc w = .err e) : CanRaise env c.cat e := by
  unfold checkColCondOn at h
  split at h
  · split at h
    · exact ⟨c, _, rfl, .unary (cid := cc.lhs) (map_err h)⟩
    · cases h
  · rcases bind_err h with h | ⟨r, hr, h⟩
    · cases hrhs : cc.rhs with
      | none => rw [hrhs] at h; cases h
      | column cid =>
        rw [hrhs] at h
        simp only [checkRhs] at h
        split at h
        · exact raise_find (map_err h)
        · cases h
      | literal s =>
        rw [hrhs] at h
        simp only [checkRhs] at h
        split at h
        · exact ⟨c, _, rfl, .literal (cid := cc.lhs) (col := col) (pred := cc.pred) (quant := cc.quant)
            (map_err h)⟩
        · cases h
    · exact ⟨c, _, rfl, .compare (cid := cc.lhs) hr (map_err h)⟩

theorem raise_colCond {rel : Option Relation} {cc : ColCond} {w : Bool}
    (h : checkColCond c rel cc w = .err e) : CanRaise env c.cat e := by
  rcases bind_err h with h | ⟨col, _, h⟩
  · cases rel with
    | none => exact raise_find h
    | some r => exact raise_relColumn h
  · exact raise_colCondOn h

theorem mapErr_err {α : Type} {f : DbErr → DbErr} {x : P α} (h : mapErr f x = .err e) :
    ∃ e', x = .err e' ∧ e = f e' := by
  cases x with
  | ok a => cases h
  | err e' => simp only [mapErr, Res.err.injEq] at h; exact ⟨e', rfl, h.symm⟩
  | panic => cases h

theorem raise_bound {col : Column} {wb : BetweenCond} {p : Pred} {b : Bound}
    (hp : p.isUnary = false) (h : checkBound c col wb p b = .err e) : CanRaise env c.cat e := by
  cases b with
  | column cid =>
    obtain ⟨e', h', rfl⟩ := mapErr_err (map_err h)
    replace h := h'
    by_cases he : e' = .columnComparison
    · subst he
      simp only [checkColCondOn, predIs, Option.any_some, hp, Bool.false_eq_true, if_false] at h
      rcases bind_err h with h | ⟨r, hr, h⟩
      · exfalso
        simp only [checkRhs] at h
        split at h
        · rcases findColumn_err (map_err h) with ⟨h, _⟩ | ⟨h, _⟩ <;> cases h
        · cases h
      · exact ⟨c, _, rfl, .between (cid := wb.colIdent) (col := col) hr (map_err h)⟩
    · by_cases he2 : e' = .columnFieldComparison
      · exfalso
        subst he2
        simp only [checkColCondOn, predIs, Option.any_some, hp, Bool.false_eq_true, if_false] at h
        rcases bind_err h with h | ⟨r, hr, h⟩
        · simp only [checkRhs] at h
          split at h
          · rcases findColumn_err (map_err h) with ⟨h, _⟩ | ⟨h, _⟩ <;> cases h
          · cases h
        · rcases checkComparison_err (map_err h) with h | h | h <;> cases h
      · have hb : betweenErr e' = e' := by
          unfold betweenErr
          split <;> first | rfl | exact absurd rfl he | exact absurd rfl he2
        rw [hb]
        exact raise_colCondOn h
  | field name type =>
    obtain ⟨e', h', rfl⟩ := mapErr_err (map_err h)
    replace h := h'
    rcases checkFieldCond_err h with rfl | rfl | rfl | rfl
    · exact ⟨c, _, rfl, .field h⟩
    · exact ⟨c, _, rfl, .field h⟩
    · exact ⟨c, _, rfl, .betweenField h⟩
    · exact ⟨c, _, rfl, .field h⟩

mutual
theorem raise_whereItem {i : WItem} (h : checkWhereItem c i = .err e) : CanRaise env c.cat e := by
  cases i with
  | bool b => simp [checkWhereItem] at h
  | nested n items =>
    simp only [checkWhereItem] at h
    exact raise_whereItems (map_err h)
  | column cc =>
    simp only [checkWhereItem] at h
    exact raise_colCond (map_err h)
  | field f =>
    simp only [checkWhereItem] at h
    rcases bind_err (map_err h) with h | ⟨col, _, h⟩
    · exact raise_find h
    · exact ⟨c, _, rfl, .field h⟩
  | between b =>
    simp only [checkWhereItem] at h
    rcases bind_err (map_err h) with h | ⟨col, _, h⟩
    · exact raise_find h
    · rcases bind_err h with h | ⟨_, _, h⟩
      · exact raise_bound (by split <;> rfl) h
      · exact raise_bound (by split <;> rfl) (map_err h)
theorem raise_whereItems {is : List WItem} (h : checkWhereItems c is = .err e) : CanRaise env c.cat e := by
  cases is with
  | nil => simp [checkWhereItems] at h
  | cons i is =>
    simp only [checkWhereItems] at h
    rcases bind_err h with h | ⟨_, _, h⟩
    · exact raise_whereItem h
    · exact raise_whereItems (map_err h)
end

theorem raise_conflict {ws : List FieldWrite} {oc : Option OnConflict}
    (h : checkConflict c ws oc = .err e) : CanRaise env c.cat e := by
  have step : ∀ {α : Type} {f : α → P ConflictTarget} {o : Option α} {t : Option ConflictTarget},
      targetStep f o t = .err e → ∃ a, f a = .err e := by
    intro α f o t h
    cases o with
    | none => cases h
    | some a => exact ⟨a, map_err h⟩
  cases oc with
  | none => cases h
  | some oc =>
    rcases bind_err h with h | ⟨_, _, h⟩
    · obtain ⟨cids, h⟩ := step h
      rcases bind_err h with h | ⟨_, _, h⟩
      · obtain ⟨_, _, h⟩ := mapP_err h
        exact raise_relColumn (map_err h)
      · split at h
        · cases h
        · split at h <;>
          · simp only [Res.err.injEq] at h
            subst h
            exact ⟨c, _, rfl, .conflict (rel := c.rel) (by simp)⟩
    · rcases bind_err h with h | ⟨_, _, h⟩
      · obtain ⟨name, h⟩ := step h
        unfold conflictIndex at h
        split at h
        · simp only [Res.err.injEq] at h
          subst h
          exact ⟨c, _, rfl, .conflict (rel := c.rel) (by simp)⟩
        · split at h
          · cases h
          · simp only [Res.err.injEq] at h
            subst h
            exact ⟨c, _, rfl, .conflict (rel := c.rel) (by simp)⟩
      · rcases bind_err h with h | ⟨_, _, h⟩
        · obtain ⟨name, h⟩ := step h
          unfold conflictConstraint at h
          split at h
          · simp only [Res.err.injEq] at h
            subst h
            exact ⟨c, _, rfl, .conflict (rel := c.rel) (by simp)⟩
          · split at h
            · cases h
            · simp only [Res.err.injEq] at h
              subst h
              exact ⟨c, _, rfl, .conflict (rel := c.rel) (by simp)⟩
        · have h := map_err h
          unfold conflictUpdate at h
          split at h
          · cases h
          · split at h
            · cases h
            · obtain ⟨_, _, h⟩ := mapP_err h
              exact raise_relColumn h

theorem loadJoin_cat {c : Checker} {rid : RelIdent} {cr : Checker × Relation}
    (h : loadJoin c rid = .ok cr) : cr.1.cat = c.cat := by
  simp only [loadJoin, Res.map_eq_ok] at h
  obtain ⟨_, _, rfl⟩ := h
  rfl

theorem joinDirs_cat {ds : List JoinDir} {c : Checker} {r : Checker × List (List JoinCond)}
    (h : checkJoinDirs c ds = .ok r) : r.1.cat = c.cat := by
  induction ds generalizing c r with
  | nil => simp only [checkJoinDirs, Res.ok.injEq] at h; rw [← h]
  | cons d ds ih =>
    simp only [checkJoinDirs, Res.bind_eq_ok, Res.map_eq_ok] at h
    obtain ⟨cr, h1, _, _, r', h3, rfl⟩ := h
    rw [← loadJoin_cat h1]
    exact ih (r := r') h3

theorem raise_joinDirs {ds : List JoinDir} {c : Checker} (h : checkJoinDirs c ds = .err e) :
    CanRaise env c.cat e := by
  induction ds generalizing c with
  | nil => cases h
  | cons d ds ih =>
    simp only [checkJoinDirs] at h
    rcases bind_err h with h | ⟨cr, hc, h⟩
    · exact raise_load (map_err h)
    · rw [← loadJoin_cat hc]
      rcases bind_err h with h | ⟨_, _, h⟩
      · obtain ⟨i, _, h⟩ := mapP_err h
        cases i with
        | bool b => cases h
        | cond cc => exact raise_colCond (map_err h)
      · exact ih (map_err h)

theorem joinBase_cat {r : Option RelIdent} {c c' : Checker} (h : joinBase c r = .ok c') :
    c'.cat = c.cat := by
  cases r with
  | none => simp only [joinBase, Res.ok.injEq] at h; rw [h]
  | some rid =>
    simp only [joinBase, Res.map_eq_ok] at h
    obtain ⟨cr, h, rfl⟩ := h
    exact loadJoin_cat h

theorem raise_join {j : Option JoinStruct} (h : checkJoin c j = .err e) : CanRaise env c.cat e := by
  cases j with
  | none => cases h
  | some j =>
    rcases bind_err h with h | ⟨c', hc, h⟩
    · cases hr : j.relation with
      | none => rw [hr] at h; cases h
      | some rid => rw [hr] at h; exact raise_load (map_err (map_err h))
    · rw [← joinBase_cat hc]
      exact raise_joinDirs h

theorem checkJoin_cat {j : Option JoinStruct} {cj : Checker × List (List JoinCond)}
    (h : checkJoin c j = .ok cj) : cj.1.cat = c.cat := by
  cases j with
  | none => simp only [checkJoin, Res.ok.injEq] at h; rw [← h]
  | some j =>
    simp only [checkJoin, Res.bind_eq_ok] at h
    obtain ⟨c', hc, h⟩ := h
    rw [← joinBase_cat hc]
    exact joinDirs_cat h

theorem raise_rest {js : List (List JoinCond)} {q : Query} (h : checkRest c js q = .err e) :
    CanRaise env c.cat e := by
  rcases bind_err h with h | ⟨_, _, h⟩
  · exact raise_columns h
  rcases bind_err h with h | ⟨_, _, h⟩
  · exact raise_default h
  rcases bind_err h with h | ⟨_, _, h⟩
  · exact raise_columns h
  rcases bind_err h with h | ⟨_, _, h⟩
  · exact raise_return h
  rcases bind_err h with h | ⟨_, _, h⟩
  · exact raise_result h
  rcases bind_err h with h | ⟨_, _, h⟩
  · exact raise_rel h
  rcases bind_err h with h | ⟨_, _, h⟩
  · exact raise_whereItems h
  · exact raise_conflict (map_err h)

theorem loadTarget_cat {cat : Catalog} {rid : RelIdent} (h : loadTarget cat rid = .ok c) : c.cat = cat := by
  simp only [loadTarget, Res.map_eq_ok] at h
  obtain ⟨_, _, rfl⟩ := h
  rfl

/-- **C79 (queries).**  A code with which Check refuses a query is raised at one of the places of
`Raised`. -/
theorem C79_query (env : ErrEnv) {cat : Catalog} {q : Query} {e : DbErr} (h : checkQuery cat q = .err e) :
    ∃ c d, c.cat = cat ∧ Raised env c e d := by
  rcases bind_err h with h | ⟨c, hc, h⟩
  · exact raise_load (map_err h)
  · rw [← loadTarget_cat hc]
    rcases bind_err h with h | ⟨cj, hj, h⟩
    · exact raise_join h
    · rw [← checkJoin_cat hj]
      exact raise_rest (c := { cj.1 with force := q.force }) h

/-- **C79 (filters).** -/
theorem C79_filter (env : ErrEnv) {cat : Catalog} {f : FilterStruct} {e : DbErr}
    (h : checkFilter cat f = .err e) : ∃ c d, c.cat = cat ∧ Raised env c e d := by
  rcases bind_err h with h | ⟨c, hc, h⟩
  · exact raise_load (map_err h)
  · rw [← loadTarget_cat hc]
    rcases bind_err h with h | ⟨_, _, h⟩
    · obtain ⟨fi, _, h⟩ := mapP_err h
      unfold checkFieldFilter at h
      split at h
      · cases h
      · split at h
        · cases h
        · rename_i col _
          have := writeConv_err (map_err h)
          subst this
          exact ⟨c, _, rfl, .column (rel := c.rel) (cid := {}) (col := col) (by simp)⟩
    · have h := map_err h
      cases ht : f.textSearch with
      | none => rw [ht] at h; cases h
      | some cid =>
        rw [ht] at h
        rcases bind_err h with h | ⟨col, _, h⟩
        · exact raise_relColumn h
        · have := refuseIf_err h
          subst this
          exact ⟨c, _, rfl, .column (rel := c.rel) (cid := cid) (col := col) (by simp)⟩

end Verif.Errors
