import Verif.Generator.PropsFiltered

/- C67: examples and exceptions. -/
namespace Verif.Generator
open Verif.Analysis Verif.Postgres

def filterFld : Analysis.Field := ({ name := b!"Filter" }, filterTy)

def intFld (n : Bytes) : Analysis.Field := ({ name := n }, Analysis.intTy)

def usersRel (n : Bytes) (t : Ty) : Analysis.Field := ({ name := n, tag := [(b!"rel", [b!"users:u"])] }, t)

/-- `age > 42` built with the filter package; the fields of the query hold their last names. -/
def filterWorld : World where
  field
    | .sel _ n => .data n
    | _ => .nil
  filter n :=
    match Filter.filterSQL [] [] [.col b!"age" b!">" (.other (42 : Int))] n with
    | some (s, ps) => (s, ps.map fun
      | .val (.other i) => .int i
      | _ => .nil)
    | none => ([], [])

example : filterWorld.filter 2 = (b!" WHERE age > $3", [.int 42]) := by decide

/-- The hypotheses hold for an update with a filter: its arguments are $1 and $2, that of the filter is $3. -/
theorem C67_example : ∃ q t c, Plain shopCat q t ∧ generate q t = some c ∧ q.filter.isSome = true ∧
    q.kind = .update ∧ c.slots = [.num 1, .num 2] ∧ endsBeforeWhere c.sql.stmt = true ∧
    sentArgs q filterWorld c = some [.data b!"Id", .data b!"Name", .int 42] ∧
    filterText filterWorld c b!"UPDATE" none = b!"UPDATE WHERE age > $3" := by
  obtain ⟨q, t, c, hb, hc, hp⟩ := code_of (env := env0) (cat := shopCat) (n := b!"UpdateUser")
    (fs := [relFld (.ptr userTy), filterFld])
    (P := fun q t c => decide (isInsertOrUpdateSlice q = false ∧ inUsesFields q = true ∧
      (∀ w ∈ t.writes, ∀ p ∈ t.pkeys, w.idx = p.idx → canUseDefault q w.field = false) ∧
      q.filter.isSome = true ∧
      q.kind = .update ∧ c.slots = [.num 1, .num 2] ∧ endsBeforeWhere c.sql.stmt = true ∧
      sentArgs q filterWorld c = some [.data b!"Id", .data b!"Name", .int 42] ∧
      filterText filterWorld c b!"UPDATE" none = b!"UPDATE WHERE age > $3")) (by decide +kernel)
  have hp := of_decide_eq_true hp
  exact ⟨q, t, c, { toBuilt := hb, one := hp.1, fields := hp.2.1, keys := fun _ => hp.2.2.1 }, hc, hp.2.2.2⟩

/-- They hold for a select, and for an EXISTS, which the filter closes. -/
theorem C67_example_select :
    (∃ q t c, Built shopCat q t ∧ generate q t = some c ∧ q.filter.isSome = true ∧ c.args = [] ∧
      q.kind = .select ∧ endsBeforeWhere c.sql.stmt = true ∧ sentArgs q filterWorld c = some [.int 42] ∧
      filterText filterWorld c b!"SELECT" none = b!"SELECT WHERE age > $1") ∧
    (∃ q t c, Built shopCat q t ∧ generate q t = some c ∧ q.filter.isSome = true ∧ c.args = [] ∧
      q.kind = .selectExists ∧ isOpen c.sql.stmt = true ∧ sentArgs q filterWorld c = some [.int 42] ∧
      filterText filterWorld c b!"SELECT EXISTS(SELECT" none = b!"SELECT EXISTS(SELECT WHERE age > $1)") := by
  constructor
  · obtain ⟨q, t, c, hb, hc, hp⟩ := code_of (env := env0) (cat := shopCat) (n := b!"SelectUsers")
      (fs := [relFld (.slice userTy), filterFld])
      (P := fun q _ c => decide (q.filter.isSome = true ∧ c.args = [] ∧
        q.kind = .select ∧ endsBeforeWhere c.sql.stmt = true ∧ sentArgs q filterWorld c = some [.int 42] ∧
        filterText filterWorld c b!"SELECT" none = b!"SELECT WHERE age > $1")) (by decide +kernel)
    exact ⟨q, t, c, hb, hc, of_decide_eq_true hp⟩
  · obtain ⟨q, t, c, hb, hc, hp⟩ := code_of (env := env0) (cat := shopCat) (n := b!"SelectUsers")
      (fs := [usersRel b!"Exists" (.basic .bool b!"bool"), filterFld])
      (P := fun q _ c => decide (q.filter.isSome = true ∧ c.args = [] ∧
        q.kind = .selectExists ∧ isOpen c.sql.stmt = true ∧ sentArgs q filterWorld c = some [.int 42] ∧
        filterText filterWorld c b!"SELECT EXISTS(SELECT" none = b!"SELECT EXISTS(SELECT WHERE age > $1)"))
      (by decide +kernel)
    exact ⟨q, t, c, hb, hc, of_decide_eq_true hp⟩

/-- An update that returns columns: RETURNING comes after the filter. -/
theorem C67_example_returning : ∃ q t c, Built shopCat q t ∧ generate q t = some c ∧ q.filter.isSome = true ∧
    q.kind = .update ∧ endsBeforeWhere c.sql.stmt = true ∧ (tailReturned c.sql.tail).length = 2 := by
  obtain ⟨q, t, c, hb, hc, hp⟩ := code_of (env := env0) (cat := shopCat) (n := b!"UpdateUser")
    (fs := [relFld (.ptr userTy), returnFld, filterFld])
    (P := fun q _ c => decide (q.filter.isSome = true ∧
      q.kind = .update ∧ endsBeforeWhere c.sql.stmt = true ∧ (tailReturned c.sql.tail).length = 2))
    (by decide +kernel)
  exact ⟨q, t, c, hb, hc, of_decide_eq_true hp⟩

/-- **C67** A select with a filter and a limit field: LIMIT $1 comes first, then WHERE age > $2, and the only
argument is that of the filter. -/
theorem C67_not_limit : ∃ q t c, Plain shopCat q t ∧ generate q t = some c ∧ q.filter.isSome = true ∧
    c.slots = [.num 1] ∧ c.args = [path [b!"Limit"]] ∧ endsBeforeWhere c.sql.stmt = false ∧
    filterWorld.filter c.args.length = (b!" WHERE age > $2", [.int 42]) ∧
    sentArgs q filterWorld c = some [.int 42] := by
  obtain ⟨q, t, c, hb, hc, hp⟩ := code_of (env := env0) (cat := shopCat) (n := b!"SelectUsers")
    (fs := [relFld (.slice userTy), filterFld, intFld b!"Limit"])
    (P := fun q t c => decide (isInsertOrUpdateSlice q = false ∧ inUsesFields q = true ∧
      (∀ w ∈ t.writes, ∀ p ∈ t.pkeys, w.idx = p.idx → canUseDefault q w.field = false) ∧
      q.filter.isSome = true ∧
      c.slots = [.num 1] ∧ c.args = [path [b!"Limit"]] ∧ endsBeforeWhere c.sql.stmt = false ∧
      filterWorld.filter c.args.length = (b!" WHERE age > $2", [.int 42]) ∧
      sentArgs q filterWorld c = some [.int 42])) (by decide +kernel)
  have hp := of_decide_eq_true hp
  exact ⟨q, t, c, { toBuilt := hb, one := hp.1, fields := hp.2.1, keys := fun _ => hp.2.2.1 }, hc, hp.2.2.2⟩

/-- **C67** A count with a filter and a limit field, which its statement does not use: WHERE age > $2 with one
argument. -/
theorem C67_not_count_limit : ∃ q t c, Built shopCat q t ∧ generate q t = some c ∧ q.filter.isSome = true ∧
    q.kind = .selectCount ∧ c.slots = [] ∧ c.args = [path [b!"Limit"]] ∧
    filterWorld.filter c.args.length = (b!" WHERE age > $2", [.int 42]) ∧
    sentArgs q filterWorld c = some [.int 42] := by
  obtain ⟨q, t, c, hb, hc, hp⟩ := code_of (env := env0) (cat := shopCat) (n := b!"SelectUsers")
    (fs := [usersRel b!"Count" Analysis.intTy, filterFld, intFld b!"Limit"])
    (P := fun q _ c => decide (q.filter.isSome = true ∧
      q.kind = .selectCount ∧ c.slots = [] ∧ c.args = [path [b!"Limit"]] ∧
      filterWorld.filter c.args.length = (b!" WHERE age > $2", [.int 42]) ∧
      sentArgs q filterWorld c = some [.int 42])) (by decide +kernel)
  exact ⟨q, t, c, hb, hc, of_decide_eq_true hp⟩

/-- **C67** A select of one record: LIMIT 1 comes before the WHERE of the filter. -/
theorem C67_not_single : ∃ q t c, Built shopCat q t ∧ generate q t = some c ∧ q.filter.isSome = true ∧
    c.args = [] ∧ endsBeforeWhere c.sql.stmt = false := by
  obtain ⟨q, t, c, hb, hc, hp⟩ := code_of (env := env0) (cat := shopCat) (n := b!"SelectUser")
    (fs := [relFld (.ptr userTy), filterFld])
    (P := fun q _ c => decide (q.filter.isSome = true ∧ c.args = [] ∧ endsBeforeWhere c.sql.stmt = false))
    (by decide +kernel)
  exact ⟨q, t, c, hb, hc, of_decide_eq_true hp⟩

/-- **C67** A select with an order: ORDER BY comes before the WHERE of the filter. -/
theorem C67_not_order : ∃ q t c, Built shopCat q t ∧ generate q t = some c ∧ q.filter.isSome = true ∧
    c.args = [] ∧ q.limit = none ∧ q.offset = none ∧ endsBeforeWhere c.sql.stmt = false := by
  obtain ⟨q, t, c, hb, hc, hp⟩ := code_of (env := env0) (cat := shopCat) (n := b!"SelectUsers")
    (fs := [relFld (.slice userTy), filterFld, dirFld b!"OrderBy" [b!"u.name"]])
    (P := fun q _ c => decide (q.filter.isSome = true ∧ c.args = [] ∧ q.limit = none ∧ q.offset = none ∧
      endsBeforeWhere c.sql.stmt = false))
    (by decide +kernel)
  exact ⟨q, t, c, hb, hc, of_decide_eq_true hp⟩

/-- **C67** A delete that returns columns: RETURNING comes before the WHERE of the filter. -/
theorem C67_not_returning : ∃ q t c, Built shopCat q t ∧ generate q t = some c ∧ q.filter.isSome = true ∧
    c.args = [] ∧ q.kind = .delete ∧ endsBeforeWhere c.sql.stmt = false := by
  obtain ⟨q, t, c, hb, hc, hp⟩ := code_of (env := env0) (cat := shopCat) (n := b!"DeleteUsers")
    (fs := [relFld (.slice userTy), filterFld, returnFld])
    (P := fun q _ c => decide (q.filter.isSome = true ∧ c.args = [] ∧ q.kind = .delete ∧
      endsBeforeWhere c.sql.stmt = false))
    (by decide +kernel)
  exact ⟨q, t, c, hb, hc, of_decide_eq_true hp⟩

end Verif.Generator
