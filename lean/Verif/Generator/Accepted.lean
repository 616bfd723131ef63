import Verif.Generator.LemmasStmt
import Verif.Postgres.PropsFields

/- What the generator is given: the results of the type checker. -/
namespace Verif.Generator
open Verif.Analysis Verif.Postgres

theorem checkJoinDirs_length : ∀ (ds : List JoinDir) (c : Checker) (r : Checker × List (List JoinCond)),
    checkJoinDirs c ds = .ok r → r.2.length = ds.length
  | [], c, r, h => by cases h; rfl
  | d :: ds, c, r, h => by
    simp only [checkJoinDirs, Res.bind_eq_ok, Res.map_eq_ok] at h
    obtain ⟨cr, _, _, _, r', h2, rfl⟩ := h
    simp [checkJoinDirs_length ds _ _ h2]

theorem checkQuery_joins {cat : Catalog} {q : Query} {t : TargetInfo} (h : checkQuery cat q = .ok t) :
    ∃ c0 c1, checkJoin c0 q.join = .ok (c1, t.joins) := by
  simp only [checkQuery, Res.bind_eq_ok] at h
  obtain ⟨c0, hc0, ⟨c1, joins⟩, hj, h⟩ := h
  simp only [checkRest, Res.bind_eq_ok, Res.map_eq_ok] at h
  obtain ⟨_, _, _, _, _, _, r1, h1, r2, h2, rw, h3, wh, h4, cf, _, rfl⟩ := h
  exact ⟨c0, c1, hj⟩

/-- The primary keys are in the order of the fields, each once. -/
theorem pkeys_increasing {cat : Catalog} {q : Query} {t : TargetInfo} (h : checkQuery cat q = .ok t) :
    t.pkeys.Pairwise (fun a b => a.idx < b.idx) := by
  obtain ⟨c, hc, r1, r2, rw', _, _, hrel, _, _, hw, _⟩ := checkQuery_ok h
  by_cases hq : Writing q
  · obtain ⟨l, hl, hwr, he, _⟩ := checkRel_writing hq hrel
    clear hwr
    rw [hw, he]
    refine flatten_increasing (r := fun x ws => ∃ y, checkRelWrite c q.kind x = .ok y ∧ ws = y.pkeys)
      (fun w => w.idx) (fun x => x.2) ?_ (xs := q.rel.type.fields.zipIdx) ?_ (zipIdx_increasing _ 0)
    · rintro x ws ⟨y, hxy, rfl⟩
      rcases checkRelWrite_ok hxy with ⟨_, _, rfl⟩ | ⟨w', hw', rfl⟩
      · simp
      · simp only
        split
        · simp [(checkWrite_ok hw').1]
        · simp
    · clear he hrel hw h
      generalize q.rel.type.fields.zipIdx = xs at hl ⊢
      induction hl with
      | nil => exact .nil
      | cons hxy _ ih => exact .cons ⟨_, hxy, rfl⟩ ih
  · rw [hw, checkRel_not_writing hq hrel]
    simp

theorem nodup_of_increasing {l : List FieldWrite} (h : l.Pairwise (fun a b => a.idx < b.idx)) :
    (l.map (·.idx)).Nodup := by
  rw [List.nodup_iff_pairwise_ne, List.pairwise_map]
  exact h.imp fun h => Nat.ne_of_lt h

theorem wf_of_accepted {cat : Catalog} {q : Query} {t : TargetInfo} (h : checkQuery cat q = .ok t) :
    Wf q t where
  writesNodup := nodup_of_increasing (C49_writes h).2
  pkeysNodup := nodup_of_increasing (pkeys_increasing h)
  joinsLength := by
    intro j hj
    obtain ⟨c0, c1, hc⟩ := checkQuery_joins h
    rw [hj] at hc
    simp only [checkJoin, Res.bind_eq_ok] at hc
    obtain ⟨_, _, hc⟩ := hc
    exact Nat.le_of_eq (checkJoinDirs_length _ _ _ hc).symm
  wherNone := by
    intro hw
    obtain ⟨c, _, _, _, _, _, _, _, _, _, _, hc⟩ := checkQuery_ok h
    rw [hw] at hc
    exact (Res.ok.inj hc).symm

/-! ### [NOT] IN applied to columns -/

mutual
/-- No column is compared by [NOT] IN with another. -/
def noColumnIn : List WItem → Bool
  | [] => true
  | i :: is => noColumnInItem i && noColumnIn is
def noColumnInItem : WItem → Bool
  | .nested _ items => noColumnIn items
  | .column c => !predIs Pred.isArray c.pred
  | _ => true
end

def noColumnInJoin (j : JoinStruct) : Bool :=
  j.directives.all fun d => d.items.all fun
    | .cond c => !predIs Pred.isArray c.pred
    | .bool _ => true

/-- The query compares columns by [NOT] IN with fields only. -/
def inUsesFields (q : Query) : Bool :=
  (q.wher.all fun w => noColumnIn w.items) && q.join.all noColumnInJoin

theorem mapErr_eq_ok {α : Type} {f : DbErr → DbErr} {r : P α} {a : α} (h : mapErr f r = .ok a) :
    r = .ok a := by
  cases r <;> simp_all [mapErr]

theorem checkColCond_pred {c : Checker} {col : Column} {cc : ColCond} {b : Bool}
    {r : ColumnConditional} (h : checkColCondOn c col cc b = .ok r) :
    r.pred = cc.pred ∧ r.lhs = cc.lhs ∧ r.rhs = cc.rhs ∧ r.quant = cc.quant := by
  unfold checkColCondOn at h
  split at h
  · split at h
    · simp only [Res.map_eq_ok] at h; obtain ⟨_, _, rfl⟩ := h; exact ⟨rfl, rfl, rfl, rfl⟩
    · cases h
  · simp only [Res.bind_eq_ok, Res.map_eq_ok] at h
    obtain ⟨_, _, _, _, rfl⟩ := h; exact ⟨rfl, rfl, rfl, rfl⟩

theorem checkFieldCond_keeps {cat : Catalog} {f g : FieldConditional} (h : checkFieldCond cat f = .ok g) :
    g.fieldName = f.fieldName ∧ g.pred = f.pred ∧ g.quant = f.quant ∧ g.func = f.func ∧
      g.colIdent = f.colIdent ∧ g.column = f.column := by
  simp only [checkFieldCond, Res.map_eq_ok] at h
  obtain ⟨_, _, rfl⟩ := h
  exact ⟨rfl, rfl, rfl, rfl, rfl, rfl⟩

theorem checkBound_ok {c : Checker} {col : Column} {wb : BetweenCond} {p : Pred} {b : Bound}
    {r : RangeBound} (hp : p.isArray = false) (h : checkBound c col wb p b = .ok r) :
    boundOk r = true := by
  cases b with
  | column cid =>
    simp only [checkBound, Res.map_eq_ok] at h
    obtain ⟨_, _, rfl⟩ := h
    rfl
  | field n t =>
    simp only [checkBound, Res.map_eq_ok] at h
    obtain ⟨g, hg, rfl⟩ := h
    have := (checkFieldCond_keeps (mapErr_eq_ok hg)).2.1
    simp [boundOk, this, predIs, hp]

theorem checkBetween_bounds {c : Checker} {b : BetweenCond} {r : BetweenConditional}
    (h : checkBetween c b = .ok r) : boundOk r.lower = true ∧ boundOk r.upper = true := by
  simp only [checkBetween, Res.bind_eq_ok, Res.map_eq_ok] at h
  obtain ⟨_, _, l, h1, u, h2, rfl⟩ := h
  constructor
  · refine checkBound_ok ?_ h1; split <;> rfl
  · refine checkBound_ok ?_ h2; split <;> rfl

mutual
theorem checkWhereItem_condOk (c : Checker) : ∀ (i : WItem) (r : Cond), noColumnInItem i = true →
    checkWhereItem c i = .ok r → condOk r = true
  | .bool _, r, _, h => by cases h; rfl
  | .nested n items, r, hi, h => by
    simp only [checkWhereItem, Res.map_eq_ok] at h
    obtain ⟨cs, hcs, rfl⟩ := h
    simp only [noColumnInItem] at hi
    simpa [condOk] using checkWhereItems_condsOk c items cs hi hcs
  | .column cc, r, hi, h => by
    simp only [checkWhereItem, checkColCond, Res.map_eq_ok, Res.bind_eq_ok] at h
    obtain ⟨x, ⟨_, _, hx⟩, rfl⟩ := h
    simp only [noColumnInItem] at hi
    simpa [condOk, (checkColCond_pred hx).1] using hi
  | .field f, r, _, h => by
    simp only [checkWhereItem, Res.map_eq_ok] at h
    obtain ⟨x, hx, rfl⟩ := h
    rfl
  | .between b, r, _, h => by
    simp only [checkWhereItem, Res.map_eq_ok] at h
    obtain ⟨x, hx, rfl⟩ := h
    have := checkBetween_bounds hx
    simp [condOk, this.1, this.2]
theorem checkWhereItems_condsOk (c : Checker) : ∀ (is : List WItem) (r : List Cond),
    noColumnIn is = true → checkWhereItems c is = .ok r → condsOk r = true
  | [], r, _, h => by cases h; rfl
  | i :: is, r, hi, h => by
    simp only [checkWhereItems, Res.map_eq_ok, Res.bind_eq_ok] at h
    obtain ⟨x, hx, xs, hxs, rfl⟩ := h
    simp only [noColumnIn, Bool.and_eq_true] at hi
    simp [condsOk, checkWhereItem_condOk c i x hi.1 hx, checkWhereItems_condsOk c is xs hi.2 hxs]
end

theorem checkJoinItems_ok (c : Checker) (rel : Relation) : ∀ (is : List JItem) (r : List JoinCond),
    (is.all fun
      | .cond c => !predIs Pred.isArray c.pred
      | .bool _ => true) = true →
    mapP (checkJoinItem c rel) is = .ok r → condsOk (r.map joinCond) = true
  | [], r, _, h => by cases h; rfl
  | i :: is, r, hi, h => by
    simp only [mapP, Res.map_eq_ok, Res.bind_eq_ok] at h
    obtain ⟨x, hx, xs, hxs, rfl⟩ := h
    rw [List.all_cons, Bool.and_eq_true] at hi
    have hr := checkJoinItems_ok c rel is xs hi.2 hxs
    cases i with
    | bool b => cases hx; simpa [condsOk, condOk, joinCond] using hr
    | cond cc =>
      simp only [checkJoinItem, checkColCond, Res.map_eq_ok, Res.bind_eq_ok] at hx
      obtain ⟨y, ⟨_, _, hy⟩, rfl⟩ := hx
      have h1 := hi.1
      simp only at h1
      rw [← (checkColCond_pred hy).1] at h1
      simp [condsOk, condOk, joinCond, hr, h1]

theorem checkJoinDirs_ok : ∀ (ds : List JoinDir) (c : Checker) (r : Checker × List (List JoinCond)),
    (ds.all fun d => d.items.all fun
      | .cond c => !predIs Pred.isArray c.pred
      | .bool _ => true) = true →
    checkJoinDirs c ds = .ok r → joinsOk r.2 = true
  | [], c, r, _, h => by cases h; rfl
  | d :: ds, c, r, hd, h => by
    simp only [checkJoinDirs, Res.bind_eq_ok, Res.map_eq_ok] at h
    obtain ⟨cr, _, items, hi, r', h2, rfl⟩ := h
    rw [List.all_cons, Bool.and_eq_true] at hd
    have h3 := checkJoinDirs_ok ds _ _ hd.2 h2
    have h4 := checkJoinItems_ok _ _ _ _ hd.1 hi
    simp only [joinsOk, List.all_cons, Bool.and_eq_true] at h3 ⊢
    exact ⟨h4, h3⟩

theorem inWithFields_of_accepted {cat : Catalog} {q : Query} {t : TargetInfo}
    (h : checkQuery cat q = .ok t) (hq : inUsesFields q = true) : inWithFields t = true := by
  simp only [inUsesFields, Bool.and_eq_true] at hq
  simp only [inWithFields, Bool.and_eq_true]
  constructor
  · obtain ⟨c0, c1, hc⟩ := checkQuery_joins h
    cases hj : q.join with
    | none =>
      rw [hj] at hc
      rw [← (Prod.mk.inj (Res.ok.inj hc)).2]
      rfl
    | some j =>
      rw [hj] at hc hq
      simp only [checkJoin, Res.bind_eq_ok] at hc
      obtain ⟨_, _, hc⟩ := hc
      exact checkJoinDirs_ok _ _ _ (by simpa [noColumnInJoin] using hq.2) hc
  · obtain ⟨c, _, _, _, _, _, _, _, _, _, _, hc⟩ := checkQuery_ok h
    cases hw : q.wher with
    | none =>
      rw [hw] at hc
      rw [← Res.ok.inj hc]
      rfl
    | some w =>
      rw [hw] at hc hq
      exact checkWhereItems_condsOk _ _ _ (by simpa using hq.1) hc

end Verif.Generator
