import Verif.Postgres.PropsLoad2

/-
C104: a database, and what the checker makes of it.
-/
namespace Verif.Postgres
open Verif.Analysis

/-- A database with the relations `users` and `events`.  The type `audit.kind`, the operator `=` of it, and
the function `digest` are in a schema that is not on the search path. -/
def shopDb : SysTables where
  types := [{ oid := 23, nameFmt := b!"integer", category := 'N' }, { oid := 25, nameFmt := b!"text", category := 'S' },
    { oid := 9000, nameFmt := b!"audit.kind", typ := 'e', category := 'E', visible := false },
    { oid := 2283, nameFmt := b!"anyelement", typ := 'p', category := 'P' },
    { oid := 1007, nameFmt := b!"integer[]", category := 'A', elem := 23 }]
  ops := [{ name := b!"=", left := 23, right := 23 }, { name := b!"~=", left := 23, right := 25, visible := false }]
  casts := [{ source := 23, target := 25, context := 'a' }, { source := 25, target := 23, context := 'e' }]
  procs := [{ name := b!"lower", args := [25], ret := 25 }, { name := b!"lower", args := [3831], ret := 2283 },
    { name := b!"upgrade", args := [25], ret := 25 }, { name := b!"pg_sleep", args := [701], ret := 2278 },
    { name := b!"sum", args := [23], ret := 20, kind := 'a' },
    { name := b!"mask", args := [25, 25], ret := 25, defaults := 1 },
    { name := b!"digest", args := [25], ret := 25, visible := false }]
  names := [(b!"users", 500), (b!"public.users", 500), (b!"events", 600)]
  kinds := [(500, 'r'), (501, 'i'), (502, 'i'), (600, 'r')]
  attrs := [{ relid := 500, num := 3, name := b!"name", typeMod := 14, notNull := true, hasDef := true, typid := 25 },
    { relid := 500, num := -1, name := b!"ctid", notNull := true, typid := 27 },
    { relid := 500, num := 1, name := b!"id", notNull := true, identity := true, typid := 23 },
    { relid := 600, num := 1, name := b!"id", typid := 23 },
    { relid := 500, num := 2, name := b!"........pg.dropped.2........", dropped := true, typid := 0 },
    { relid := 500, num := 4, name := b!"tags", typid := 1007 },
    { relid := 600, num := 2, name := b!"kind", typid := 9000 }]
  indexes := [{ relid := 500, oid := 502, name := b!"users_name_key", unique := true, immediate := false, key := [3]
                definition := b!"CREATE UNIQUE INDEX users_name_key ON public.users USING btree (name)" },
    { relid := 500, oid := 501, name := b!"users_pkey", unique := true, primary := true, key := [1]
      definition := b!"CREATE UNIQUE INDEX users_pkey ON public.users USING btree (id)" }]
  cons := [{ relid := 500, oid := 702, name := b!"users_name_key", typ := 'u' },
    { relid := 500, oid := 701, name := b!"users_pkey", typ := 'p' }]
  literals := fun l => if l = b!"'login'::audit.kind" then some 9000 else if l = b!"1" then some 23 else none

/-- **C104** The database of the examples is as databases are. -/
theorem C104_consistent : Consistent shopDb where
  types := by decide +kernel
  casts := by decide +kernel
  attrs := by decide +kernel
  primary := by
    intro r
    simp only [shopDb, List.filter_cons, Bool.false_and, Bool.true_and]
    by_cases h : 500 = r <;> simp [h]
  keys := by
    intro i hi
    simp only [shopDb, List.mem_cons, List.not_mem_nil, or_false] at hi
    rcases hi with rfl | rfl
    · exact ⟨by simp, by simp [Pgsql.InRange]⟩
    · exact ⟨by simp, by simp [Pgsql.InRange]⟩
  names := by decide +kernel

def intPg : PgType := { oid := 23, nameFmt := b!"integer", category := 'N' }
def textPg : PgType := { oid := 25, nameFmt := b!"text", category := 'S' }
def intsPg : PgType := { oid := 1007, nameFmt := b!"integer[]", category := 'A', elem := 23 }
def usersId : RelIdent := { name := b!"users", alias := b!"u" }

/-- **C104** What is loaded for `users:u`: the columns in their order, without the system column and the one that
was dropped; the constraints and the indexes in the order of their oids. -/
theorem C104_example : loadRelation (catalogOf shopDb) usersId = .ok
    { id := usersId
      columns := [{ num := 1, name := b!"id", hasNotNull := true, isPrimary := true, type := intPg, rel := usersId },
        { num := 3, name := b!"name", typeMod := 14, hasNotNull := true, hasDefault := true, type := textPg, rel := usersId },
        { num := 4, name := b!"tags", type := intsPg, rel := usersId }]
      constraints := [{ name := b!"users_pkey", typ := 'p' }, { name := b!"users_name_key", typ := 'u' }]
      indexes := [{ name := b!"users_pkey", isUnique := true, isPrimary := true, key := [1], expression := b!"id" },
        { name := b!"users_name_key", isUnique := true, key := [3], expression := b!"name" }] } := by
  decide +kernel

/-- **C104** Types, operators, casts and functions; of the two functions `lower` that of a range, whose result is a
pseudo type, is known too, but its types are not. -/
theorem C104_example_rest :
    (catalogOf shopDb).type 23 = some intPg ∧ (catalogOf shopDb).type 2283 = none ∧
    (catalogOf shopDb).hasOp ⟨b!"=", 23, 23⟩ = true ∧ (catalogOf shopDb).hasOp ⟨b!"=", 23, 25⟩ = false ∧
    (catalogOf shopDb).castContext 25 23 = some 'a' ∧ (catalogOf shopDb).castContext 23 25 = some 'e' ∧
    (catalogOf shopDb).castContext 23 23 = none ∧
    (catalogOf shopDb).procsOf b!"lower" = [⟨b!"lower", 25, 25⟩, ⟨b!"lower", 3831, 2283⟩] ∧
    (catalogOf shopDb).procsOf b!"pg_sleep" = [] ∧
    loadRelation (catalogOf shopDb) { name := b!"user" } = .err .relationUnknown ∧
    scanKey b!"1 -2 30" = some [1, -2, 30] ∧ scanKey b!"1  2" = none ∧ scanKey b!"40000" = none := by
  refine ⟨?_, ?_, ?_, ?_, ?_, ?_, ?_, ?_, ?_, ?_, ?_, ?_, ?_⟩ <;> decide +kernel

example : loadMany (catalogOf shopDb) [] [usersId, { name := b!"events" }, usersId] =
    [loadRelation (catalogOf shopDb) usersId, .err .relationColumnUnknownType,
      loadRelation (catalogOf shopDb) usersId] := by
  rw [C104_cache]
  have h : loadRelation (catalogOf shopDb) { name := b!"events" } = .err .relationColumnUnknownType := by
    decide +kernel
  simp [h]

/-! ### Where the checker does not know the database -/

/-- **C104** One column of a type that is not on the search path, and nothing can be generated for the relation, even
by those who never name the column: `events` has a column `id`, whose type is known. -/
theorem C104_not_search_path :
    loadRelation (catalogOf shopDb) { name := b!"events" } = .err .relationColumnUnknownType ∧
    (∃ a, Live shopDb 600 a ∧ a.name = b!"id" ∧ Usable shopDb a.typid) ∧
    ∃ t ∈ shopDb.types, t.oid = 9000 ∧ t.category ≠ 'P' := by
  refine ⟨by decide +kernel, ⟨{ relid := 600, num := 1, name := b!"id", typid := 23 }, ?_, rfl, ?_⟩, ?_⟩
  · exact ⟨by decide +kernel, rfl, by decide, rfl⟩
  · exact ⟨{ oid := 23, nameFmt := b!"integer", category := 'N' }, by decide +kernel, rfl, rfl, by decide⟩
  · exact ⟨{ oid := 9000, nameFmt := b!"audit.kind", typ := 'e', category := 'E', visible := false },
      by decide +kernel, rfl, by decide⟩

/-- **C104** A literal of such a type crashes the checker: its type is not in the catalog. -/
theorem C104_not_literal : (typeOfLiteral (catalogOf shopDb) b!"'login'::audit.kind").bind (fun t =>
      checkComparison (catalogOf shopDb) textPg t (some .isEQ) none) = .panic ∧
    (typeOfLiteral (catalogOf shopDb) b!"1").bind (fun t =>
      checkComparison (catalogOf shopDb) intPg t (some .isEQ) none) = .ok () := by
  decide +kernel

/-- **C104** An operator that is not on the search path is taken for one that can be used: the query does not look at
`pg_operator_is_visible`. -/
theorem C104_not_visible_operator : (catalogOf shopDb).hasOp ⟨b!"~=", 23, 25⟩ = true ∧
    ∀ o ∈ shopDb.ops, o.name = b!"~=" → o.visible = false := by decide +kernel

/-- **C104** Nor does it for functions. -/
theorem C104_not_visible_function : (catalogOf shopDb).procsOf b!"digest" = [⟨b!"digest", 25, 25⟩] ∧
    ∀ p ∈ shopDb.procs, p.name = b!"digest" → p.visible = false := by decide +kernel

/-- **C104** A function `upgrade` is unknown: the pattern `'_pg_%'` is meant for names that begin with `_pg_`, but `_`
stands for any character. -/
theorem C104_not_upgrade : (catalogOf shopDb).procsOf b!"upgrade" = [] ∧
    (∃ p ∈ shopDb.procs, p.name = b!"upgrade" ∧ p.args.length = 1 ∧ p.visible = true) ∧
    LeftOut b!"upgrade" ∧ LeftOut b!"pgp_key_id" ∧ ¬ LeftOut b!"pg" ∧ ¬ LeftOut b!"lower" := by
  refine ⟨by decide +kernel, ⟨{ name := b!"upgrade", args := [25], ret := 25 }, by decide +kernel, rfl, rfl, rfl⟩,
    .inr ⟨_, _, _, rfl⟩, .inl ⟨_, _, rfl⟩, ?_, ?_⟩
  · rintro (⟨c, r, h⟩ | ⟨a, c, r, h⟩) <;> simp at h
  · rintro (⟨c, r, h⟩ | ⟨a, c, r, h⟩) <;> simp at h

/-- **C104** A function that can be called with one argument, because the second has a default, is unknown. -/
theorem C104_not_default_argument : (catalogOf shopDb).procsOf b!"mask" = [] ∧
    ∃ p ∈ shopDb.procs, p.name = b!"mask" ∧ p.args.length - p.defaults = 1 := by
  exact ⟨by decide +kernel, { name := b!"mask", args := [25, 25], ret := 25, defaults := 1 },
    by decide +kernel, rfl, rfl⟩

/-- **C104** An aggregate is taken for a function that can be used in a condition, which the database refuses. -/
theorem C104_not_aggregate : (catalogOf shopDb).procsOf b!"sum" = [⟨b!"sum", 23, 20⟩] ∧
    ∀ p ∈ shopDb.procs, p.name = b!"sum" → p.kind = 'a' := by decide +kernel

/-- The checker for `users:u`. -/
def usersChecker : P Checker := loadTarget (catalogOf shopDb) usersId

/-- **C104** An identity column is refused where its default is asked for: the database keeps its default elsewhere. -/
theorem C104_not_identity :
    usersChecker.bind (fun c => checkDefault c [{ name := b!"id" }]) = .err .columnDefaultUnset ∧
    usersChecker.bind (fun c => checkDefault c [{ name := b!"name" }]) = .ok () ∧
    ∀ a ∈ shopDb.attrs, a.name = b!"id" ∧ a.relid = 500 → a.identity = true := by
  refine ⟨?_, ?_, ?_⟩ <;> decide +kernel

/-- **C104** A deferrable constraint is accepted as the target of a conflict, which the database refuses. -/
theorem C104_not_deferrable :
    usersChecker.bind (fun c => conflictColumns c.rel [{ name := b!"name" }]) = .ok (.index b!"name" []) ∧
    usersChecker.bind (fun c => conflictConstraint c.rel b!"users_name_key") =
      .ok (.constraint b!"users_name_key") ∧
    ∀ i ∈ shopDb.indexes, i.name = b!"users_name_key" → i.immediate = false := by
  refine ⟨?_, ?_, ?_⟩ <;> decide +kernel

end Verif.Postgres
