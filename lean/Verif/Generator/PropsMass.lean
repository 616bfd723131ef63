import Verif.Generator.PropsBatch2

/- C34: updates and deletes of all records. -/
namespace Verif.Generator
open Verif.Analysis Verif.Postgres

/-- The condition of an update or delete: nothing if there is no WHERE clause. -/
def condition : Stmt Slot → Option (BList Slot)
  | .update _ _ _ _ w _ => w
  | .delete _ _ w _ => w
  | _ => none

/-- There is a WHERE clause and it holds a condition. -/
def restricted (s : Stmt Slot) : Bool :=
  match condition s with
  | some (.cons ..) => true
  | _ => false

/-- A condition, not a connective. -/
def isCondition : WItem → Bool
  | .bool _ => false
  | _ => true

theorem checkWhere_condition {c : Checker} : ∀ {is : List WItem} {r : List Cond},
    checkWhereItems c is = .ok r → is.any isCondition = true → r.any (fun x => (isBool x).isNone) = true
  | [], r, _, hi => by cases hi
  | i :: is, r, h, hi => by
    simp only [checkWhereItems, Res.map_eq_ok, Res.bind_eq_ok] at h
    obtain ⟨x, hx, xs, hxs, rfl⟩ := h
    rw [List.any_cons, Bool.or_eq_true] at hi ⊢
    rcases hi with hi | hi
    · left
      cases i with
      | bool b => cases hi
      | nested n items =>
        simp only [checkWhereItem, Res.map_eq_ok] at hx
        obtain ⟨_, _, rfl⟩ := hx; rfl
      | field f =>
        simp only [checkWhereItem, Res.map_eq_ok] at hx
        obtain ⟨_, _, rfl⟩ := hx; rfl
      | column f =>
        simp only [checkWhereItem, Res.map_eq_ok] at hx
        obtain ⟨_, _, rfl⟩ := hx; rfl
      | between f =>
        simp only [checkWhereItem, Res.map_eq_ok] at hx
        obtain ⟨_, _, rfl⟩ := hx; rfl
    · exact .inr (checkWhere_condition hxs hi)

theorem condList_cons (sx : GoExpr) : ∀ (cs : List Cond) (g : G) (first seen : Bool) (boolean : Option Bool),
    condsKept first seen cs = true → (seen = true → boolean.isSome = true) →
    cs.any (fun x => (isBool x).isNone) = true →
    ∃ k x rest, (condList sx g first boolean cs).1 = .cons k x rest
  | [], _, _, _, _, _, _, h => by cases h
  | c :: cs, g, first, seen, boolean, hk, hs, ha => by
    rw [condList]
    rw [condsKept] at hk
    cases hb : isBool c with
    | some b =>
      simp only [hb] at hk ⊢
      refine condList_cons sx cs g false true (some b) hk (fun _ => rfl) ?_
      simpa [List.any_cons, hb] using ha
    | none =>
      simp only [hb, Bool.and_eq_true, Bool.or_eq_true] at hk ⊢
      unfold addItem
      cases first with
      | true => exact ⟨_, _, _, rfl⟩
      | false =>
        have := hs (by simpa using hk.1.1)
        cases boolean with
        | none => cases this
        | some b => cases b <;> exact ⟨_, _, _, rfl⟩

/-- **C34** Apart from the following cases the statement has a condition: All, a filter, a delete without
where struct, a where struct without conditions, an update of a record without primary key fields. -/
theorem C34_restricted_partial {cat : Catalog} {q : Query} {t : TargetInfo} {c : Code} (h : Built cat q t)
    (hone : isInsertOrUpdateSlice q = false) (hk : q.kind = .update ∨ q.kind = .delete)
    (hall : q.all = false) (hf : q.filter = none)
    (hw : ∀ w, q.wher = some w → w.items.any isCondition = true)
    (hd : q.kind = .delete → q.wher ≠ none)
    (hp : q.kind = .update → q.wher = none → t.pkeys ≠ [])
    (hc : generate q t = some c) : restricted c.sql.stmt = true := by
  obtain ⟨js, g1, w', g2, _, hbw, hst, _⟩ := generate_split hc
  have hcons : ∃ k x rest, w' = some (.cons k x rest) := by
    cases hx : q.wher with
    | none =>
      have hu : q.kind = .update := by
        rcases hk with hk | hk
        · exact hk
        · exact absurd hx (hd hk)
      have hpk : isUpdateWithPKeys q = true := by
        simp [isUpdateWithPKeys, hu, Query.hasWhere, hx, hall, hf]
      simp only [buildWhere, hpk, if_true, Option.some.injEq, Prod.mk.injEq] at hbw
      rw [← hbw.1]
      cases hps : t.pkeys with
      | nil => exact absurd hps (hp hu hx)
      | cons p ps => exact ⟨_, _, _, rfl⟩
    | some w =>
      have hpk : isUpdateWithPKeys q = false := by
        simp [isUpdateWithPKeys, Query.hasWhere, hx]
      obtain ⟨ch, _, _, _, _, _, _, _, _, _, _, hch⟩ := checkQuery_ok h.checked
      simp only [hx, Option.map_some, Option.getD_some] at hch
      have hany := checkWhere_condition hch (hw w hx)
      have hlen : t.wher.length > 0 := by
        cases ht : t.wher with
        | nil => rw [ht] at hany; cases hany
        | cons _ _ => simp
      obtain ⟨k, x, rest, he⟩ := condList_cons (.sel recv w.fieldName) t.wher g1 true false none h.kept
        (fun h => by cases h) hany
      simp only [buildWhere, hpk, Bool.false_eq_true, if_false, hlen, if_true, hx, Option.some.injEq,
        Prod.mk.injEq] at hbw
      exact ⟨k, x, rest, by rw [← hbw.1, he]⟩
  obtain ⟨k, x, rest, rfl⟩ := hcons
  rcases hk with hk | hk
  · have hs : q.rel.type.isSlice = false := by simpa [isInsertOrUpdateSlice, isInsertOrUpdate, hk] using hone
    simp only [buildStmt, hk, buildUpdate, hs, hf, Option.map_eq_some_iff] at hst
    obtain ⟨_, _, hst⟩ := hst
    rw [← hst]
    rfl
  · simp only [buildStmt, hk, buildDelete, Option.map_eq_some_iff] at hst
    obtain ⟨_, _, hst⟩ := hst
    rw [← hst]
    rfl

/-- **C34** An update of a slice of records with primary key fields has a condition, too. -/
theorem C34_restricted_slice {cat : Catalog} {q : Query} {t : TargetInfo} {c : Code} (h : Batch cat q t)
    (hk : q.kind = .update) (hp : t.pkeys ≠ []) (hc : generate q t = some c) :
    ∃ as k x rest r, c.sql.tail = .update as (some (.cons k x rest)) r := by
  obtain ⟨js, g1, w, g2, _, hw, hst, _⟩ := generate_split hc
  obtain ⟨h1, h2, h3⟩ := h.rows
  have hs := h.kind.1
  have hpk : isUpdateWithPKeys q = true := by simp [isUpdateWithPKeys, hk, Query.hasWhere, h1, h2, h3]
  simp only [buildWhere, hpk, if_true, hs, Option.some.injEq, Prod.mk.injEq] at hw
  simp only [buildStmt, hk, buildUpdate, hs, if_true, Option.map_eq_some_iff] at hst
  obtain ⟨_, _, hst⟩ := hst
  rw [← hst, ← hw.1]
  cases hps : t.pkeys with
  | nil => exact absurd hps hp
  | cons p ps => exact ⟨_, _, _, _, _, rfl⟩

/-- The hypotheses of `C34_restricted_partial` hold for an update by primary key and a delete by id. -/
theorem C34_example :
    (∃ q t c, Built shopCat q t ∧ generate q t = some c ∧ isInsertOrUpdateSlice q = false ∧
      q.kind = .update ∧ q.all = false ∧ q.filter = none ∧ q.wher.isNone = true ∧ t.pkeys.length = 1) ∧
    ∃ q t c, Built shopCat q t ∧ generate q t = some c ∧ q.kind = .delete ∧ q.all = false ∧
      q.filter = none ∧ (q.wher.any fun w => w.items.any isCondition) = true := by
  constructor
  · obtain ⟨q, t, c, hb, hc, hp⟩ := code_of (env := env0) (cat := shopCat) (n := b!"UpdateUser")
      (fs := [relFld (.ptr userTy)])
      (P := fun q t _ => decide (isInsertOrUpdateSlice q = false ∧ q.kind = .update ∧ q.all = false ∧
        q.filter = none ∧ q.wher.isNone = true ∧ t.pkeys.length = 1)) (by decide +kernel)
    exact ⟨q, t, c, hb, hc, of_decide_eq_true hp⟩
  · obtain ⟨q, t, c, hb, hc, hp⟩ := code_of (env := env0) (cat := shopCat) (n := b!"DeleteUsers")
      (fs := [relOnly, whereFld])
      (P := fun q _ _ => decide (q.kind = .delete ∧ q.all = false ∧
        q.filter = none ∧ (q.wher.any fun w => w.items.any isCondition) = true)) (by decide +kernel)
    exact ⟨q, t, c, hb, hc, of_decide_eq_true hp⟩

/-- **C34** A delete without where struct, filter and All deletes everything; so does one of a record. -/
theorem C34_not_delete :
    (∃ q t c, Built shopCat q t ∧ generate q t = some c ∧ q.kind = .delete ∧ q.all = false ∧
      q.filter = none ∧ (condition c.sql.stmt).isNone = true) ∧
    ∃ q t c, Built shopCat q t ∧ generate q t = some c ∧ q.kind = .delete ∧ q.all = false ∧
      q.filter = none ∧ q.rel.type.fields.length = 2 ∧ (condition c.sql.stmt).isNone = true := by
  constructor
  · obtain ⟨q, t, c, hb, hc, hp⟩ := code_of (env := env0) (cat := shopCat) (n := b!"DeleteUsers")
      (fs := [relOnly])
      (P := fun q _ c => decide (q.kind = .delete ∧ q.all = false ∧ q.filter = none ∧
        (condition c.sql.stmt).isNone = true)) (by decide +kernel)
    exact ⟨q, t, c, hb, hc, of_decide_eq_true hp⟩
  · obtain ⟨q, t, c, hb, hc, hp⟩ := code_of (env := env0) (cat := shopCat) (n := b!"DeleteUser")
      (fs := [relFld (.ptr userTy)])
      (P := fun q _ c => decide (q.kind = .delete ∧ q.all = false ∧ q.filter = none ∧
        q.rel.type.fields.length = 2 ∧ (condition c.sql.stmt).isNone = true)) (by decide +kernel)
    exact ⟨q, t, c, hb, hc, of_decide_eq_true hp⟩

/-- **C34** So does one with an empty where struct. -/
theorem C34_not_empty_where : ∃ q t c, Built shopCat q t ∧ generate q t = some c ∧ q.kind = .delete ∧
    q.all = false ∧ q.filter = none ∧ q.wher.isSome = true ∧ (condition c.sql.stmt).isNone = true := by
  obtain ⟨q, t, c, hb, hc, hp⟩ := code_of (env := env0) (cat := shopCat) (n := b!"DeleteUsers")
    (fs := [relOnly, whereOf []])
    (P := fun q _ c => decide (q.kind = .delete ∧ q.all = false ∧ q.filter = none ∧
      q.wher.isSome = true ∧ (condition c.sql.stmt).isNone = true)) (by decide +kernel)
  exact ⟨q, t, c, hb, hc, of_decide_eq_true hp⟩

/-- `type User struct { Age int "sql:age" }`. -/
def keylessTy : Ty :=
  .named { name := b!"User", pkg := some { path := b!"p", name := b!"p" } }
    (.struct (.ofList [({ name := b!"Age", tag := [(b!"sql", [b!"age"])] }, Analysis.intTy)]))

/-- **C34** An update of a record without primary key has a WHERE clause without condition. -/
theorem C34_not_keyless : ∃ q t c, Built shopCat q t ∧ generate q t = some c ∧ q.kind = .update ∧
    q.all = false ∧ q.filter = none ∧ (condition c.sql.stmt).isSome = true ∧
    restricted c.sql.stmt = false := by
  obtain ⟨q, t, c, hb, hc, hp⟩ := code_of (env := env0) (cat := shopCat) (n := b!"UpdateUser")
    (fs := [relFld (.ptr keylessTy)])
    (P := fun q _ c => decide (q.kind = .update ∧ q.all = false ∧ q.filter = none ∧
      (condition c.sql.stmt).isSome = true ∧ restricted c.sql.stmt = false)) (by decide +kernel)
  exact ⟨q, t, c, hb, hc, of_decide_eq_true hp⟩

end Verif.Generator
