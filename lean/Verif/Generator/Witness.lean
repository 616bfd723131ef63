import Verif.Generator.Pipeline
import Verif.Postgres.PropsFields

/- A database and query structs for the examples and counterexamples about generated code. -/
namespace Verif.Generator
open Verif.Analysis Verif.Postgres

/-- Analysis, type checking and generation of one query struct; no result if it is refused. -/
def pipeline (env : Env) (cat : Catalog) (n : Bytes) (fs : List Analysis.Field) :
    Option (Query × TargetInfo × Option Code) :=
  match analyzeQuery env [] n fs with
  | .ok s =>
    match checkQuery cat s.q with
    | .ok t => some (s.q, t, generate s.q t)
    | _ => none
  | _ => none

theorem pipeline_built {env : Env} {cat : Catalog} {n : Bytes} {fs : List Analysis.Field} {q : Query}
    {t : TargetInfo} {g : Option Code} (h : pipeline env cat n fs = some (q, t, g)) :
    Built cat q t ∧ generate q t = g := by
  unfold pipeline at h
  cases ha : analyzeQuery env [] n fs with
  | ok s =>
    rw [ha] at h
    cases hc : checkQuery cat s.q with
    | ok t' =>
      simp only [hc, Option.some.injEq, Prod.mk.injEq] at h
      obtain ⟨rfl, rfl, rfl⟩ := h
      exact ⟨⟨⟨env, [], n, fs, s, ha, rfl⟩, hc⟩, rfl⟩
    | err e => simp [hc] at h
    | panic => simp [hc] at h
  | err e => rw [ha] at h; cases h
  | panic => rw [ha] at h; cases h

/-- What holds of the outcome of the pipeline holds of an accepted query. -/
theorem built_of {env : Env} {cat : Catalog} {n : Bytes} {fs : List Analysis.Field}
    {P : Query → TargetInfo → Option Code → Bool}
    (h : (pipeline env cat n fs).any (fun x => P x.1 x.2.1 x.2.2) = true) :
    ∃ q t, Built cat q t ∧ P q t (generate q t) = true := by
  cases hp : pipeline env cat n fs with
  | none => rw [hp] at h; cases h
  | some x =>
    rw [hp] at h
    obtain ⟨q, t, g⟩ := x
    obtain ⟨hb, hg⟩ := pipeline_built hp
    exact ⟨q, t, hb, by rw [hg]; exact h⟩

/-- The same for the generated code. -/
theorem code_of {env : Env} {cat : Catalog} {n : Bytes} {fs : List Analysis.Field}
    {P : Query → TargetInfo → Code → Bool}
    (h : (pipeline env cat n fs).any (fun x => x.2.2.any (P x.1 x.2.1)) = true) :
    ∃ q t c, Built cat q t ∧ generate q t = some c ∧ P q t c = true := by
  obtain ⟨q, t, hb, hp⟩ := built_of (P := fun q t g => g.any (P q t)) h
  obtain ⟨c, hc, hp⟩ := (Option.any_eq_true _ _).1 hp
  exact ⟨q, t, c, hb, hc, hp⟩

def arrTy (oid elem : Nat) (name : Bytes) : PgType :=
  { oid := oid, nameFmt := name, category := 'A', elem := elem }

/-- users (id integer primary key default, name text, age integer not null default, tags integer[]),
posts (id integer primary key default, user_id integer). -/
def shopCat : Catalog :=
  { types := [Postgres.intTy, textTy, arrTy 1007 Oid.int4 b!"integer[]", arrTy 1009 Oid.text b!"text[]"]
    ops := [⟨b!"=", Oid.int4, Oid.int4⟩, ⟨b!"<", Oid.int4, Oid.int4⟩, ⟨b!">", Oid.int4, Oid.int4⟩,
            ⟨b!"<=", Oid.int4, Oid.int4⟩, ⟨b!">=", Oid.int4, Oid.int4⟩, ⟨b!"=", Oid.text, Oid.text⟩]
    procs := [⟨b!"lower", Oid.text, Oid.text⟩, ⟨b!"norm", Oid.text, Oid.text⟩, ⟨b!"norm", 1009, 1009⟩]
    rels := [(b!"users",
        { columns := [{ num := 1, name := b!"id", typeOid := Oid.int4, isPrimary := true
                        hasDefault := true, hasNotNull := true },
                      { num := 2, name := b!"name", typeOid := Oid.text },
                      { num := 3, name := b!"age", typeOid := Oid.int4, hasNotNull := true
                        hasDefault := true },
                      { num := 4, name := b!"tags", typeOid := 1007 }] }),
      (b!"posts",
        { columns := [{ num := 1, name := b!"id", typeOid := Oid.int4, isPrimary := true
                        hasDefault := true, hasNotNull := true },
                      { num := 2, name := b!"user_id", typeOid := Oid.int4 }] })] }

def strTy : Ty := .basic .string b!"string"

/-- A field with an `sql` tag. -/
def sqlFld (n : Bytes) (tag : List Bytes) (t : Ty) : Analysis.Field :=
  ({ name := n, tag := [(b!"sql", tag)] }, t)

/-- A where struct with the given fields. -/
def whereOf (l : List Analysis.Field) : Analysis.Field := ({ name := b!"Where" }, .struct (.ofList l))

/-- `rel:"users:u"` without a record type. -/
def relOnly : Analysis.Field := ({ name := b!"_", tag := [(b!"rel", [b!"users:u"])] }, gosqlDir b!"Relation")

/-- `q.A.B.C`. -/
def path (l : List Bytes) : GoExpr := l.foldl .sel (.ident b!"q")

end Verif.Generator
