import Verif.Generator.PropsQuals
import Verif.Generator.PropsErrors2
import Verif.Generator.PropsFilterGen2
import Verif.Analysis.PropsQuery2

/- C69: examples and exceptions. -/
namespace Verif.Generator
open Verif.Analysis Verif.Postgres

/-- `User` of package `x/models`. -/
def modelTy : Ty :=
  .named { name := b!"User", pkg := some { path := b!"x/models", name := b!"models" } }
    (.struct (.ofList
      [({ name := b!"Id", exported := true, tag := [(b!"sql", [b!"id"])] }, Analysis.intTy),
       ({ name := b!"Tags", exported := true, tag := [(b!"sql", [b!"tags"])] }, .slice Analysis.intTy)]))

/-- The names that packages declare: the last element of the path. -/
def lastName (p : Bytes) : Bytes := afterSlash p

/-- A file with one query. -/
def oneQuery (m : MethodConf) (q : Query) (t : TargetInfo) (c : Code) : List Imp × List Ref :=
  writeFile b!"p" m {} [.query q t c]

def allResolve (x : List Imp × List Ref) : Bool := x.2.all fun r => decide (Resolves lastName x.1 r)

/-- The theorems are not vacuous: a select of imported records with an array column, an IN list and an info
handler; every reference means its package and every import is used. -/
theorem C69_example : ∃ q t c, Built shopCat q t ∧ generate q t = some c ∧
    (oneQuery { withContext := true } q t c).1.map (·.path) =
      [b!"github.com/frk/gosql", b!"context", b!"x/models", b!"github.com/frk/gosql/pgsql"] ∧
    (oneQuery { withContext := true } q t c).2 =
      [⟨b!"github.com/frk/gosql", b!"gosql"⟩, ⟨b!"context", b!"context"⟩, ⟨b!"x/models", b!"models"⟩,
       ⟨b!"github.com/frk/gosql/pgsql", b!"pgsql"⟩, ⟨b!"github.com/frk/gosql", b!"gosql"⟩,
       ⟨b!"github.com/frk/gosql", b!"gosql"⟩] ∧
    ∀ x ∈ (oneQuery { withContext := true } q t c).2,
      Resolves lastName (oneQuery { withContext := true } q t c).1 x := by
  obtain ⟨q, t, c, hb, hc, hp⟩ := code_of (env := env0) (cat := shopCat) (n := b!"SelectUsers")
    (fs := [relFld (.slice modelTy), whereOf [sqlFld b!"Ids" [b!"u.id isin"] (.slice Analysis.intTy)],
      handlerFld true])
    (P := fun q t c => decide ((oneQuery { withContext := true } q t c).1.map (·.path) =
        [b!"github.com/frk/gosql", b!"context", b!"x/models", b!"github.com/frk/gosql/pgsql"] ∧
      (oneQuery { withContext := true } q t c).2 =
        [⟨b!"github.com/frk/gosql", b!"gosql"⟩, ⟨b!"context", b!"context"⟩, ⟨b!"x/models", b!"models"⟩,
         ⟨b!"github.com/frk/gosql/pgsql", b!"pgsql"⟩, ⟨b!"github.com/frk/gosql", b!"gosql"⟩,
         ⟨b!"github.com/frk/gosql", b!"gosql"⟩] ∧
      ∀ x ∈ (oneQuery { withContext := true } q t c).2,
        Resolves lastName (oneQuery { withContext := true } q t c).1 x)) (by decide +kernel)
  exact ⟨q, t, c, hb, hc, of_decide_eq_true hp⟩

/-- The requests of that file fulfil the hypotheses of `C69_file_partial`. -/
theorem C69_example_names : WellNamed lastName
    [(b!"github.com/frk/gosql", b!"gosql"), (b!"context", b!""), (b!"x/models", b!"models"),
     (b!"github.com/frk/gosql/pgsql", b!"pgsql")] where
  true_ := by unfold TrueNames; decide +kernel
  numbered := by
    intro r hr r' hr' d hd hdd he
    have hb : ∀ x ∈ [(b!"github.com/frk/gosql", b!"gosql"), (b!"context", b!""), (b!"x/models", b!"models"),
        (b!"github.com/frk/gosql/pgsql", b!"pgsql")],
        (impName x.1 x.2).getLast?.all (fun c => !c.isDigit) = true := by decide +kernel
    have := hb r' hr'
    have hu : Undigited (impName r'.1 r'.2) := by
      intro c hc
      rw [hc] at this
      simpa using this
    exact hd (undigited_append hu hdd he)
  fixed := by decide +kernel

/-- **C69** A method that scans into a record of another package that is not behind a pointer imports the
package and does not refer to it: the file does not compile. -/
theorem C69_not_used : ∃ q t c, Built shopCat q t ∧ generate q t = some c ∧
    (outputType q).isPointer = false ∧
    b!"x/models" ∈ (oneQuery {} q t c).1.map (·.path) ∧
    ∀ x ∈ (oneQuery {} q t c).2, x.path ≠ b!"x/models" := by
  obtain ⟨q, t, c, hb, hc, hp⟩ := code_of (env := env0) (cat := shopCat) (n := b!"SelectUser")
    (fs := [relFld modelTy])
    (P := fun q t c => decide ((outputType q).isPointer = false ∧
      b!"x/models" ∈ (oneQuery {} q t c).1.map (·.path) ∧
      ∀ x ∈ (oneQuery {} q t c).2, x.path ≠ b!"x/models")) (by decide +kernel)
  exact ⟨q, t, c, hb, hc, of_decide_eq_true hp⟩

/-- An argument type of another package. -/
def sqlxConf : MethodConf := { argPath := b!"x/sqlx", argName := b!"sqlx" }

/-- **C69** With another type of the argument an IN list refers to package gosql, which is not imported. -/
theorem C69_not_imported_in : ∃ q t c, Built shopCat q t ∧ generate q t = some c ∧
    ⟨gosqlPath, b!"gosql"⟩ ∈ (oneQuery sqlxConf q t c).2 ∧
    gosqlPath ∉ (oneQuery sqlxConf q t c).1.map (·.path) := by
  obtain ⟨q, t, c, hb, hc, hp⟩ := code_of (env := env0) (cat := shopCat) (n := b!"SelectUsers")
    (fs := [relFld (.slice userTy), whereOf [sqlFld b!"Ids" [b!"u.id isin"] (.slice Analysis.intTy)]])
    (P := fun q t c => decide (⟨gosqlPath, b!"gosql"⟩ ∈ (oneQuery sqlxConf q t c).2 ∧
      gosqlPath ∉ (oneQuery sqlxConf q t c).1.map (·.path))) (by decide +kernel)
  exact ⟨q, t, c, hb, hc, of_decide_eq_true hp⟩

/-- **C69** So does the code that tells an info handler. -/
theorem C69_not_imported_info : ∃ q t c, Built shopCat q t ∧ generate q t = some c ∧
    ⟨gosqlPath, b!"gosql"⟩ ∈ (oneQuery sqlxConf q t c).2 ∧
    gosqlPath ∉ (oneQuery sqlxConf q t c).1.map (·.path) := by
  obtain ⟨q, t, c, hb, hc, hp⟩ := code_of (env := env0) (cat := shopCat) (n := b!"SelectUsers")
    (fs := [relFld (.slice userTy), handlerFld true])
    (P := fun q t c => decide (c.g.slices = [] ∧ ⟨gosqlPath, b!"gosql"⟩ ∈ (oneQuery sqlxConf q t c).2 ∧
      gosqlPath ∉ (oneQuery sqlxConf q t c).1.map (·.path))) (by decide +kernel)
  exact ⟨q, t, c, hb, hc, (of_decide_eq_true hp).2⟩

/-- **C69** The loop over the records of a batch insert imports gosql itself. -/
theorem C69_example_batch : ∃ q t c, Built shopCat q t ∧ generate q t = some c ∧
    (oneQuery sqlxConf q t c).1.map (·.path) = [sqlxConf.argPath, gosqlPath] ∧
    (oneQuery sqlxConf q t c).2 = [⟨sqlxConf.argPath, sqlxConf.argName⟩, ⟨gosqlPath, b!"gosql"⟩] := by
  obtain ⟨q, t, c, hb, hc, hp⟩ := code_of (env := env0) (cat := shopCat) (n := b!"InsertUsers")
    (fs := [relFld (.slice userTy)])
    (P := fun q t c => decide ((oneQuery sqlxConf q t c).1.map (·.path) = [sqlxConf.argPath, gosqlPath] ∧
      (oneQuery sqlxConf q t c).2 = [⟨sqlxConf.argPath, sqlxConf.argName⟩, ⟨gosqlPath, b!"gosql"⟩]))
    (by decide +kernel)
  exact ⟨q, t, c, hb, hc, of_decide_eq_true hp⟩

/-- **C69** A handler that is not an info handler needs nothing of gosql. -/
theorem C69_example_handler : ∃ q t c, Built shopCat q t ∧ generate q t = some c ∧ q.errorHandler.isSome = true ∧
    (oneQuery sqlxConf q t c).2 = [⟨sqlxConf.argPath, sqlxConf.argName⟩] := by
  obtain ⟨q, t, c, hb, hc, hp⟩ := code_of (env := env0) (cat := shopCat) (n := b!"SelectUsers")
    (fs := [relFld userTy, handlerFld false])
    (P := fun q t c => decide (q.errorHandler.isSome = true ∧
      (oneQuery sqlxConf q t c).2 = [⟨sqlxConf.argPath, sqlxConf.argName⟩])) (by decide +kernel)
  exact ⟨q, t, c, hb, hc, of_decide_eq_true hp⟩

/-- **C69** With an argument type of another package named pgsql the converters are looked for there, and the
import of the right one, named pgsql1, is not used. -/
theorem C69_not_fixed : ∃ q t c, Built shopCat q t ∧ generate q t = some c ∧
    let f := oneQuery { argPath := b!"x/pgsql", argName := b!"pgsql" } q t c
    f.1.map Imp.face = [(b!"x/pgsql", b!"pgsql", false), (pgsqlPath, b!"pgsql1", true)] ∧
    f.2 = [⟨b!"x/pgsql", b!"pgsql"⟩, ⟨pgsqlPath, b!"pgsql"⟩] ∧
    ¬Resolves lastName f.1 ⟨pgsqlPath, b!"pgsql"⟩ := by
  obtain ⟨q, t, c, hb, hc, hp⟩ := code_of (env := env0) (cat := shopCat) (n := b!"InsertUser")
    (fs := [relFld (structTy b!"User" [sqlFld b!"Id" [b!"id"] Analysis.intTy,
      sqlFld b!"Tags" [b!"tags"] (.slice Analysis.intTy)])])
    (P := fun q t c => decide (
      let f := oneQuery { argPath := b!"x/pgsql", argName := b!"pgsql" } q t c
      f.1.map Imp.face = [(b!"x/pgsql", b!"pgsql", false), (pgsqlPath, b!"pgsql1", true)] ∧
      f.2 = [⟨b!"x/pgsql", b!"pgsql"⟩, ⟨pgsqlPath, b!"pgsql"⟩] ∧
      ¬Resolves lastName f.1 ⟨pgsqlPath, b!"pgsql"⟩)) (by decide +kernel)
  exact ⟨q, t, c, hb, hc, of_decide_eq_true hp⟩

/-- **C69** What was found out about a record type for a query of one package is used for the next package:
there the type is taken for an imported one, and the package imports itself. -/
theorem C69_not_cache : ∃ s t c,
    analyzeQuery { pkgPath := b!"x/models" }
      (cacheAfter (analyzeQuery env0 [] b!"SelectUsers" [relFld (.slice modelTy)])) b!"SelectUsers"
      [relFld (.slice modelTy)] = .ok s ∧
    checkQuery shopCat s.q = .ok t ∧ generate s.q t = some c ∧
    b!"x/models" ∈ (writeFile b!"x/models" {} {} [.query s.q t c]).1.map (·.path) := by
  have h : (match analyzeQuery { pkgPath := b!"x/models" }
        (cacheAfter (analyzeQuery env0 [] b!"SelectUsers" [relFld (.slice modelTy)])) b!"SelectUsers"
        [relFld (.slice modelTy)] with
      | .ok s =>
        match checkQuery shopCat s.q with
        | .ok t => (generate s.q t).any fun c =>
          decide (b!"x/models" ∈ (writeFile b!"x/models" {} {} [.query s.q t c]).1.map (·.path))
        | _ => false
      | _ => false) = true := by decide +kernel
  cases ha : analyzeQuery { pkgPath := b!"x/models" }
      (cacheAfter (analyzeQuery env0 [] b!"SelectUsers" [relFld (.slice modelTy)])) b!"SelectUsers"
      [relFld (.slice modelTy)] with
  | ok s =>
    simp only [ha] at h
    cases hc : checkQuery shopCat s.q with
    | ok t =>
      simp only [hc] at h
      obtain ⟨c, hg, hp⟩ := (Option.any_eq_true _ _).1 h
      exact ⟨s, t, c, rfl, hc, hg, of_decide_eq_true hp⟩
    | err e => simp [hc] at h
    | panic => simp [hc] at h
  | err e => simp [ha] at h
  | panic => simp [ha] at h

/-- **C69** A nested pointer to a struct without name is set to `new()`. -/
theorem C69_not_named : ∃ q t c, Built shopCat q t ∧ generate q t = some c ∧
    ∃ p ∈ fieldInits q t, ∃ n, p.getLast? = some n ∧ n.isPointer = true ∧ n.typeName = [] := by
  obtain ⟨q, t, c, hb, hc, hp⟩ := code_of (env := env0) (cat := shopCat) (n := b!"SelectUsers")
    (fs := [relFld (.slice (structTy b!"User" [nestFld b!"A" (.struct (.ofList
      [sqlFld b!"Id" [b!"id"] Analysis.intTy]))]))])
    (P := fun q t _ => (fieldInits q t).any fun p => p.getLast?.any fun n => n.isPointer && n.typeName = [])
    (by decide +kernel)
  refine ⟨q, t, c, hb, hc, ?_⟩
  obtain ⟨p, hp1, hp2⟩ := List.any_eq_true.1 hp
  obtain ⟨n, hn, h⟩ := (Option.any_eq_true _ _).1 hp2
  simp only [Bool.and_eq_true, decide_eq_true_eq] at h
  exact ⟨p, hp1, n, hn, h.1, h.2⟩

/-- **C69** A converter of filter values is asked for by path; the last element of the path is written although
the package may have another name. -/
theorem C69_not_last_element : ∃ s t, FilterBuilt docCat s t ∧
    (writeFile b!"p" {} { converters := [(b!"a/x.Name", ⟨b!"gopkg.in/yaml.v3", b!"Fix"⟩)] } [.filter s t]).2 =
      [⟨b!"gopkg.in/yaml.v3", b!"yaml.v3"⟩,
       ⟨b!"github.com/frk/gosql/filter", b!"filter"⟩, ⟨b!"a/x", b!"x"⟩] := by
  have := filter_of (env := env0) (cat := docCat) (n := b!"FilterUsers")
    (fs := filterStruct [(b!"filter", [b!"v2"])]
      [sqlFld b!"Name" [b!"name"] (pkgTy b!"a/x" b!"x" b!"Name" strTy)])
    (P := fun s t => decide (
      (writeFile b!"p" {} { converters := [(b!"a/x.Name", ⟨b!"gopkg.in/yaml.v3", b!"Fix"⟩)] } [.filter s t]).2 =
        [⟨b!"gopkg.in/yaml.v3", b!"yaml.v3"⟩,
       ⟨b!"github.com/frk/gosql/filter", b!"filter"⟩, ⟨b!"a/x", b!"x"⟩])) (by decide +kernel)
  obtain ⟨s, t, h, hp⟩ := this
  exact ⟨s, t, h, by simpa using hp⟩

end Verif.Generator
