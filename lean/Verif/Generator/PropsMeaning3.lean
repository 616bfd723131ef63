import Verif.Generator.PropsMeaning2
import Verif.Generator.PropsParams2
import Verif.Analysis.PropsQuery2

/- C45 and C64: examples and exceptions. -/
namespace Verif.Generator
open Verif.Analysis Verif.Postgres

/-- What the WHERE clause of the generated code means, its parameters replaced by the arguments they stand
for; none if there is no clause, `some none` if it is no condition. -/
def Code.whereMeaning {V : Type} (W : CondWorld V) (c : Code) : Option (Option B3) :=
  c.sql.stmt.wher.map fun l =>
    evalList W (l.map fun s => (resolve c.args c.g.slices s).getD noSel)

/-- What the where struct asks for. -/
def whereAsked {V : Type} (W : CondWorld V) (q : Query) : Option B3 :=
  q.wher.map fun w => askedAll W [b!"q", w.fieldName] w.items

/-- A world of numbers: columns age, id (and others), fields Lo, Hi (and others). -/
def demo (age lo hi : Int) : CondWorld Int where
  col c := if c.name = b!"age" then age else 5
  lit _ := 0
  call _ x := x + 1
  op s x y :=
    if s = b!"=" then some (x = y) else if s = b!"<" then some (x < y) else if s = b!">" then some (x > y)
    else if s = b!"<=" then some (x ≤ y) else if s = b!">=" then some (x ≥ y) else none
  isNull _ := false
  truth x := some (x ≠ 0)
  elems x := [x, 100]
  field p := if p.getLast? = some b!"Lo" then lo else if p.getLast? = some b!"Hi" then hi else 5

/-- `Age struct { Lo int "sql:x"; Hi int "sql:y" }`. -/
def rangeFld (tag : Bytes) : Analysis.Field :=
  sqlFld b!"Age" [tag] (.struct (.ofList [sqlFld b!"Lo" [b!"x"] Analysis.intTy, sqlFld b!"Hi" [b!"y"] Analysis.intTy]))


theorem VExpr.map_map {α β γ : Type} (f : α → β) (g : β → γ) (x : VExpr α) :
    (x.map f).map g = x.map (g ∘ f) := by
  induction x <;> simp_all [VExpr.map]

theorem VExpr.map_id {α : Type} (x : VExpr α) : x.map id = x := by
  induction x <;> simp_all [VExpr.map]

mutual
theorem BExpr.map_map {α β γ : Type} (f : α → β) (g : β → γ) : ∀ x : BExpr α,
    (x.map f).map g = x.map (g ∘ f)
  | .binary .. => by simp [BExpr.map, VExpr.map_map]
  | .inList .. => by simp [BExpr.map, VExpr.map_map]
  | .truth .. => by simp [BExpr.map, VExpr.map_map]
  | .null .. => by simp [BExpr.map, VExpr.map_map]
  | .between .. => by simp [BExpr.map, VExpr.map_map]
  | .bare _ => by simp [BExpr.map, VExpr.map_map]
  | .group l => by simp [BExpr.map, BList.map_map f g l]
theorem BList.map_map {α β γ : Type} (f : α → β) (g : β → γ) : ∀ l : BList α,
    (l.map f).map g = l.map (g ∘ f)
  | .nil => rfl
  | .cons _ x l => by simp [BList.map, BExpr.map_map f g x, BList.map_map f g l]
end

mutual
theorem BExpr.map_id {α : Type} : ∀ x : BExpr α, x.map id = x
  | .binary .. => by simp [BExpr.map, VExpr.map_id]
  | .inList .. => by simp [BExpr.map, VExpr.map_id]
  | .truth .. => by simp [BExpr.map, VExpr.map_id]
  | .null .. => by simp [BExpr.map, VExpr.map_id]
  | .between .. => by simp [BExpr.map, VExpr.map_id]
  | .bare _ => by simp [BExpr.map, VExpr.map_id]
  | .group l => by simp [BExpr.map, BList.map_id l]
theorem BList.map_id {α : Type} : ∀ l : BList α, l.map id = l
  | .nil => rfl
  | .cons _ x l => by simp [BList.map, BExpr.map_id x, BList.map_id l]
end

/-- The parameters of the code stand for the arguments, so C64 is about what the code means. -/
theorem WhereIs.meaning {V : Type} {c : Code} {l : BList GoExpr} (h : WhereIs c l) (W : CondWorld V) :
    c.whereMeaning W = some (evalList W l) := by
  unfold WhereIs at h
  unfold Code.whereMeaning
  cases hw : c.sql.stmt.wher with
  | none => rw [hw] at h; cases h
  | some k =>
    rw [hw] at h
    simp only [Option.map_some, Option.some.injEq] at h ⊢
    have h2 := congrArg (BList.map fun o => Option.getD o noSel) h
    simp only [BList.map_map] at h2
    have h3 : BList.map ((fun o => Option.getD o noSel) ∘ some) l = l := by
      have : ((fun o => Option.getD o noSel) ∘ some : GoExpr → GoExpr) = id := rfl
      rw [this, BList.map_id]
    rw [h3] at h2
    exact congrArg (evalList W) h2

/-- **C64** C64_where_partial about the code: what its WHERE clause means is what the where struct asks for. -/
theorem C64_meaning_partial {cat : Catalog} {q : Query} {t : TargetInfo} {c : Code} (h : Plain cat q t)
    (hc : generate q t = some c) (w : WhereStruct) (hw : q.wher = some w) (hne : w.items ≠ [])
    (hwf : WellFormed w.items) (hr : renderedAll w.items = true) (V : Type) (W : CondWorld V) :
    c.whereMeaning W = (whereAsked W q).map some := by
  obtain ⟨l, hl, he⟩ := C64_where_partial h hc w hw hne hwf hr
  rw [hl.meaning W, he V W, whereAsked, hw]
  rfl

/-! ### An example -/

mutual
/-- A condition, every group of it well formed. -/
def wfItem : WItem → Bool
  | .bool _ => false
  | .nested _ l => l.length = 0 || wfFrom true l
  | _ => true
/-- Conditions and connectives alternate and the last is a condition; `e` iff a condition comes first. -/
def wfFrom (e : Bool) : List WItem → Bool
  | [] => !e
  | .bool _ :: l => !e && wfFrom true l
  | i :: l => e && wfItem i && wfFrom false l
end

mutual
theorem wfItem_sound : ∀ i : WItem, wfItem i = true → IsCond i
  | .bool _, h => by simp [wfItem] at h
  | .nested n l, h => by
    refine .nested n l ?_
    simp only [wfItem, Bool.or_eq_true, decide_eq_true_eq] at h
    rcases h with h | h
    · rw [List.length_eq_zero_iff.1 h]; exact .nil
    · exact (wfFrom_sound l).1 h
  | .field f, _ => .field f
  | .column c, _ => .column c
  | .between b, _ => .between b
theorem wfFrom_sound : ∀ l : List WItem, (wfFrom true l = true → WellFormed l) ∧
    (wfFrom false l = true → ∀ c, IsCond c → WellFormed (c :: l))
  | [] => ⟨fun h => by simp [wfFrom] at h, fun _ c hc => .one c hc⟩
  | .bool b :: l => by
    refine ⟨fun h => by simp [wfFrom] at h, fun h c hc => ?_⟩
    simp only [wfFrom, Bool.not_false, Bool.true_and] at h
    have := (wfFrom_sound l).1 h
    cases l with
    | nil => simp [wfFrom] at h
    | cons d l => exact .more c d b l hc this
  | .nested n k :: l => ⟨fun h => by
      simp only [wfFrom, Bool.true_and, Bool.and_eq_true] at h
      exact (wfFrom_sound l).2 h.2 _ (wfItem_sound _ h.1), fun h => by simp [wfFrom] at h⟩
  | .field f :: l => ⟨fun h => by
      simp only [wfFrom, Bool.true_and, Bool.and_eq_true] at h
      exact (wfFrom_sound l).2 h.2 _ (.field f), fun h => by simp [wfFrom] at h⟩
  | .column f :: l => ⟨fun h => by
      simp only [wfFrom, Bool.true_and, Bool.and_eq_true] at h
      exact (wfFrom_sound l).2 h.2 _ (.column f), fun h => by simp [wfFrom] at h⟩
  | .between f :: l => ⟨fun h => by
      simp only [wfFrom, Bool.true_and, Bool.and_eq_true] at h
      exact (wfFrom_sound l).2 h.2 _ (.between f), fun h => by simp [wfFrom] at h⟩
end

/-- The kinds of the items, and whether each is rendered with its meaning. -/
def itemKinds (q : Query) : List (Nat × Bool) :=
  (q.wher.map (·.items)).getD [] |>.map fun i => (match i with
    | .bool false => 0
    | .bool true => 1
    | .nested .. => 2
    | .field _ => 3
    | .column _ => 4
    | .between _ => 5, rendered i)

/-- `WHERE u.id = $1 AND u.age BETWEEN $2 AND $3 OR (u.age < u.id AND u.id IN (…))`; age is 7, the range
from 10 to 20 and the id 5, so the condition is false; for the range from 1 to 20 it is true. -/
theorem C64_example : ∃ q t c, Plain shopCat q t ∧ generate q t = some c ∧
    (∃ w, q.wher = some w ∧ w.items ≠ [] ∧ WellFormed w.items ∧ renderedAll w.items = true) ∧
    itemKinds q = [(3, true), (0, true), (5, true), (1, true), (2, true)] ∧
    c.whereMeaning (demo 7 10 20) = some (some (some false)) ∧ whereAsked (demo 7 10 20) q = some (some false) ∧
    c.whereMeaning (demo 7 1 20) = some (some (some true)) ∧ whereAsked (demo 7 1 20) q = some (some true) ∧
    c.whereMeaning (demo 3 10 20) = some (some (some true)) := by
  obtain ⟨q, t, c, hb, hc, hp⟩ := code_of (env := env0) (cat := shopCat) (n := b!"SelectUsers")
    (fs := [relFld (.slice userTy),
      whereOf [sqlFld b!"Id" [b!"u.id"] Analysis.intTy, rangeFld b!"u.age isbetween",
        ({ name := b!"G", tag := [(b!"sql", [b!">"]), (b!"bool", [b!"or"])] },
          .struct (.ofList [dirFld b!"Column" [b!"u.age < u.id"], sqlFld b!"Ids" [b!"u.id isin"] (.slice Analysis.intTy)]))]])
    (P := fun q _ c => decide ((isInsertOrUpdateSlice q = false ∧ inUsesFields q = true ∧ q.kind = .select ∧
      (q.wher.any fun w => w.items.length > 0 && wfFrom true w.items && renderedAll w.items) = true) ∧
      itemKinds q = [(3, true), (0, true), (5, true), (1, true), (2, true)] ∧
      c.whereMeaning (demo 7 10 20) = some (some (some false)) ∧ whereAsked (demo 7 10 20) q = some (some false) ∧
      c.whereMeaning (demo 7 1 20) = some (some (some true)) ∧ whereAsked (demo 7 1 20) q = some (some true) ∧
      c.whereMeaning (demo 3 10 20) = some (some (some true))))
    (by decide +kernel)
  obtain ⟨⟨h1, h2, h3, h4⟩, h5⟩ := of_decide_eq_true hp
  refine ⟨q, t, c, { toBuilt := hb, one := h1, fields := h2
                     keys := fun h => by simp [isUpdateWithPKeys, h3] at h }, hc, ?_, h5⟩
  obtain ⟨w, hw, h4⟩ := (Option.any_eq_true _ _).1 h4
  simp only [Bool.and_eq_true, decide_eq_true_eq] at h4
  exact ⟨w, hw, fun h => by simp [h] at h4, (wfFrom_sound _).1 h4.1.2, h4.2⟩

/-- What the conditions of the joined tables mean. -/
def Code.joinMeanings {V : Type} (W : CondWorld V) (c : Code) : List (Option B3) :=
  c.sql.stmt.joins.map fun j => evalList W (j.cond.map fun s => (resolve c.args c.g.slices s).getD noSel)

/-- `LEFT JOIN posts AS p ON p.user_id = u.id OR p.id = u.age AND p.id < u.id` for the tag
`posts:p,p.user_id = u.id;p.id = u.age,p.id < u.id`: although `;` binds the first two conditions in the tag,
AND binds the last two in the clause.  Ids are 5, so the first condition is true and the last is false. -/
theorem C64_example_join : ∃ q t c, Plain shopCat q t ∧ generate q t = some c ∧
    (∃ j, q.join = some j ∧ ∃ d, j.directives = [d] ∧ d.items ≠ [] ∧
      renderedAll (d.items.map JItem.asItem) = true ∧
      askedAll (demo 7 10 20) [] (d.items.map JItem.asItem) = some true) ∧
    c.joinMeanings (demo 7 10 20) = [some (some true)] := by
  obtain ⟨q, t, c, hb, hc, hp⟩ := code_of (env := env0) (cat := shopCat) (n := b!"SelectUsers")
    (fs := [relFld (.slice userTy), joinFld [b!"posts:p", b!"p.user_id = u.id;p.id = u.age", b!"p.id < u.id"]])
    (P := fun q _ c => decide (isInsertOrUpdateSlice q = false ∧ inUsesFields q = true ∧ q.kind = .select ∧
      (q.join.any fun j => match j.directives with
        | [d] => d.items.length > 0 && renderedAll (d.items.map JItem.asItem) &&
          decide (askedAll (demo 7 10 20) [] (d.items.map JItem.asItem) = some true)
        | _ => false) = true ∧
      c.joinMeanings (demo 7 10 20) = [some (some true)]))
    (by decide +kernel)
  obtain ⟨h1, h2, h3, h4, h5⟩ := of_decide_eq_true hp
  refine ⟨q, t, c, { toBuilt := hb, one := h1, fields := h2
                     keys := fun h => by simp [isUpdateWithPKeys, h3] at h }, hc, ?_, h5⟩
  obtain ⟨j, hj, h4⟩ := (Option.any_eq_true _ _).1 h4
  refine ⟨j, hj, ?_⟩
  cases hd : j.directives with
  | nil => simp [hd] at h4
  | cons d ds =>
    cases ds with
    | cons _ _ => simp [hd] at h4
    | nil =>
      simp only [hd, Bool.and_eq_true, decide_eq_true_eq] at h4
      exact ⟨d, rfl, fun h => by simp [h] at h4, h4.1.2, h4.2⟩

/-- The hypotheses of C64_pkeys hold for an update of one record by its key. -/
theorem C64_example_pkeys : ∃ q t c, Plain shopCat q t ∧ generate q t = some c ∧ q.kind = .update ∧
    q.hasWhere = false ∧ t.pkeys ≠ [] ∧ c.whereMeaning (demo 7 10 20) = some (some (some true)) := by
  obtain ⟨q, t, c, hb, hc, hp⟩ := code_of (env := env0) (cat := shopCat) (n := b!"UpdateUser")
    (fs := [relFld (.ptr userTy)])
    (P := fun q t c => decide (isInsertOrUpdateSlice q = false ∧ inUsesFields q = true ∧
      (∀ w ∈ t.writes, ∀ p ∈ t.pkeys, w.idx = p.idx → canUseDefault q w.field = false) ∧
      q.kind = .update ∧ q.hasWhere = false ∧ t.pkeys.length > 0 ∧
      c.whereMeaning (demo 7 10 20) = some (some (some true))))
    (by decide +kernel)
  obtain ⟨h1, h2, h3, h4, h5, h6, h7⟩ := of_decide_eq_true hp
  exact ⟨q, t, c, { toBuilt := hb, one := h1, fields := h2, keys := fun _ => h3 }, hc, h4, h5,
    fun h => by simp [h] at h6, h7⟩

/-! ### Exceptions -/

/-- What a where struct of a select of users asks for and what the clause means. -/
def meanings (w : List Analysis.Field) (W : CondWorld Int) : Option (Option B3 × Option (Option B3)) :=
  (pipeline env0 shopCat b!"SelectUsers" [relFld (.slice userTy), whereOf w]).bind fun x =>
    x.2.2.map fun c => (whereAsked W x.1, c.whereMeaning W)

theorem meanings_built {w : List Analysis.Field} {W : CondWorld Int} {a : Option B3} {m : Option (Option B3)}
    (h : meanings w W = some (a, m)) :
    ∃ q t c, Built shopCat q t ∧ generate q t = some c ∧ whereAsked W q = a ∧ c.whereMeaning W = m := by
  unfold meanings at h
  simp only [Option.bind_eq_some_iff, Option.map_eq_some_iff] at h
  obtain ⟨⟨q, t, g⟩, hp, c, hc, he⟩ := h
  obtain ⟨hb, hg⟩ := pipeline_built hp
  simp only at hc he
  simp only [Prod.mk.injEq] at he
  exact ⟨q, t, c, hb, by rw [hg, hc], he.1, he.2⟩

/-- **C45** `u.age notbetween` with 10 and 20 asks for rows whose age is not between; for age 7 the clause is
false, for age 15 it is true. -/
theorem C45_not_negated_query :
    (∃ q t c, Built shopCat q t ∧ generate q t = some c ∧ whereAsked (demo 7 10 20) q = some (some true) ∧
      c.whereMeaning (demo 7 10 20) = some (some (some false))) ∧
    (∃ q t c, Built shopCat q t ∧ generate q t = some c ∧ whereAsked (demo 15 10 20) q = some (some false) ∧
      c.whereMeaning (demo 15 10 20) = some (some (some true))) :=
  ⟨meanings_built (w := [rangeFld b!"u.age notbetween"]) (by decide +kernel),
   meanings_built (w := [rangeFld b!"u.age notbetween"]) (by decide +kernel)⟩

/-- **C45** `u.age isbetweensym` with 20 and 10 asks for the ages from 10 to 20; no age satisfies the
clause. -/
theorem C45_not_symmetric :
    ∃ q t c, Built shopCat q t ∧ generate q t = some c ∧ whereAsked (demo 15 20 10) q = some (some true) ∧
      c.whereMeaning (demo 15 20 10) = some (some (some false)) :=
  meanings_built (w := [rangeFld b!"u.age isbetweensym"]) (by decide +kernel)

/-- **C45** Plain BETWEEN keeps its meaning. -/
theorem C45_example :
    ∃ q t c, Built shopCat q t ∧ generate q t = some c ∧ whereAsked (demo 15 10 20) q = some (some true) ∧
      c.whereMeaning (demo 15 10 20) = some (some (some true)) :=
  meanings_built (w := [rangeFld b!"u.age isbetween"]) (by decide +kernel)

/-- **C64** A function is applied to the column only, not to the elements of an IN list. -/
theorem C64_not_function_in :
    ∃ q t c, Built shopCat q t ∧ generate q t = some c ∧ whereAsked (demo 7 10 20) q = some (some true) ∧
      c.whereMeaning (demo 7 10 20) = some (some (some false)) :=
  meanings_built (w := [sqlFld b!"Names" [b!"u.name isin", b!"@norm"] (.slice strTy)]) (by decide +kernel)

/-- **C64** A nested struct without conditions is rendered as `()`, which is no condition. -/
theorem C64_not_empty_group :
    ∃ q t c, Built shopCat q t ∧ generate q t = some c ∧ whereAsked (demo 7 10 20) q = some (some true) ∧
      c.whereMeaning (demo 7 10 20) = some none :=
  meanings_built (w := [sqlFld b!"Name" [b!"u.name"] strTy, sqlFld b!"G" [b!">"] (.struct (.ofList []))])
    (by decide +kernel)

/-- **C64** A Column directive with BETWEEN (and one right-hand side) is rendered as the left-hand column
alone. -/
theorem C64_not_column_range :
    ∃ q t c, Built shopCat q t ∧ generate q t = some c ∧ c.slots = [] ∧
      ∃ rest, c.sql.stmt.wher = some (.cons .initial (.bare (.col { qualifier := b!"u", name := b!"age" })) rest) := by
  obtain ⟨q, t, c, hb, hc, hp⟩ := code_of (env := env0) (cat := shopCat) (n := b!"SelectUsers")
    (fs := [relFld (.slice userTy), whereOf [dirFld b!"Column" [b!"u.age isbetween u.id"]]])
    (P := fun _ _ c => decide (c.slots = []) && (match c.sql.stmt.wher with
      | some (.cons .initial (.bare (.col { qualifier := ['u'], name := ['a', 'g', 'e'] })) _) => true
      | _ => false)) (by decide +kernel)
  rw [Bool.and_eq_true, decide_eq_true_eq] at hp
  obtain ⟨h1, h2⟩ := hp
  refine ⟨q, t, c, hb, hc, h1, ?_⟩
  split at h2
  · rename_i rest he
    exact ⟨rest, he⟩
  · cases h2

/-- **C64** A Column directive with IN is accepted with an array column; the code then ranges over a field
without a name, and counts a parameter too few. -/
theorem C64_not_column_in :
    ∃ q t c, Built shopCat q t ∧ generate q t = some c ∧
      outcome c = ([.slice 1], [], [path [b!"Where", b!""]], -1) := by
  obtain ⟨q, t, c, hb, hc, hp⟩ := code_of (env := env0) (cat := shopCat) (n := b!"SelectUsers")
    (fs := [relFld (.slice userTy), whereOf [dirFld b!"Column" [b!"u.id isin u.tags"]]])
    (P := fun _ _ c => decide (outcome c = ([.slice 1], [], [path [b!"Where", b!""]], -1))) (by decide +kernel)
  exact ⟨q, t, c, hb, hc, of_decide_eq_true hp⟩

end Verif.Generator
