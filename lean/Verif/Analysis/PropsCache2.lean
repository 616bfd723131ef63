import Verif.Analysis.PropsCache

/- C72: cases. -/
namespace Verif.Analysis

def recordTypes (js : List Job) : List Ty :=
  js.flatMap fun j =>
    (j.fields.filter fun f => f.1.tag.has b!"rel" || tolower f.1.name = b!"result").map (·.2)

theorem recordType_iff {js : List Job} {t : Ty} : RecordType js t ↔ t ∈ recordTypes js := by
  simp only [RecordType, recordTypes, List.mem_flatMap, List.mem_map, List.mem_filter, Bool.or_eq_true,
    decide_eq_true_eq]
  constructor
  · rintro ⟨j, hj, h, hm, hh⟩
    exact ⟨j, hj, (h, t), ⟨hm, hh⟩, rfl⟩
  · rintro ⟨j, hj, ⟨h, t'⟩, ⟨hm, hh⟩, rfl⟩
    exact ⟨j, hj, h, hm, hh⟩

/-- A condition that can be computed: one package, and what Uniform says about the types. -/
theorem uniform_of {js : List Job} (e : Env) (he : js.all (fun j => j.env = e) = true)
    (ht : (recordTypes js).all (fun t => t.unqualified && (recordTypes js).all fun t' =>
      cacheKey t = none || cacheKey t ≠ cacheKey t' || t = t') = true) : Uniform js := by
  simp only [List.all_eq_true, Bool.and_eq_true, Bool.or_eq_true, decide_eq_true_eq] at he ht
  refine ⟨fun t t' h h' hk hk' => ?_, C72_one_package fun j hj j' hj' => by rw [he j hj, he j' hj'],
    fun t h => (ht t (recordType_iff.1 h)).1⟩
  rcases (ht t (recordType_iff.1 h)).2 t' (recordType_iff.1 h') with (h1 | h1) | h1
  · exact absurd h1 hk
  · exact absurd hk' h1
  · exact h1

/-- The columns of the records of a list of results. -/
def cols : Analysed → List Bytes
  | .query q _ => q.rel.type.fields.map (·.colIdent.name)
  | .filter f => f.rel.type.fields.map (·.colIdent.name)

def okCols (r : R (List Analysed)) : Option (List (List Bytes)) :=
  match r with
  | .ok l => some (l.map cols)
  | _ => none

def twoSelects : List Job :=
  [.query env0 b!"SelectUsers" [relFld (.slice userTy)],
   .query env0 b!"SelectUsersById" [relFld (.slice userTy), whereFld],
   .query env0 b!"InsertUser" [relFld (.ptr userTy),
     ({ name := b!"Result" }, .slice userTy)]]

/-- The theorems are not vacuous: two of these three queries find their types in the cache. -/
theorem C72_example : Uniform twoSelects ∧
    okCols (runJobs [] twoSelects) = some [[b!"id", b!"name"], [b!"id", b!"name"], [b!"id", b!"name"]] ∧
    ((runJob [] (.query env0 b!"SelectUsers" [relFld (.slice userTy)])).map fun p =>
      p.2.map (·.1)) = .ok [b!"[]p.User"] :=
  ⟨uniform_of env0 (by decide +kernel) (by decide +kernel), by decide +kernel, by decide +kernel⟩

/-- A record of package `p` with an unexported column. -/
def halfTy : Ty :=
  .named { name := b!"Half", pkg := some { path := b!"p", name := b!"p" } }
    (.struct (.ofList
      [({ name := b!"Id", tag := [(b!"sql", [b!"id"])] }, intTy),
       ({ name := b!"name", exported := false, tag := [(b!"sql", [b!"name"])] }, .basic .string b!"string")]))

def inP : Job := .query env0 b!"SelectHalves" [relFld (.slice halfTy)]
def inQ : Job := .query { pkgPath := b!"q" } b!"SelectHalves" [relFld (.slice halfTy)]

/-- **C72** A type that is used in its own package and in another: the package that comes first decides for
both whether the unexported column is there. -/
theorem C72_not_imported :
    okCols (eachAlone [inP, inQ]) = some [[b!"id", b!"name"], [b!"id"]] ∧
    okCols (runJobs [] [inP, inQ]) = some [[b!"id", b!"name"], [b!"id", b!"name"]] ∧
    okCols (runJobs [] [inQ, inP]) = some [[b!"id"], [b!"id"]] := by decide +kernel

def asU : Job := .query env0 b!"SelectFirst" [relFld (.slice qualTy)]
def asX : Job :=
  .query env0 b!"SelectRows" [({ name := b!"Rows", tag := [(b!"rel", [b!"users:x"])] }, .slice qualTy)]

/-- **C72** A type with a qualified column: the second query is accepted or not depending on the order. -/
theorem C72_not_qualified :
    okCols (eachAlone [asU, asX]) = none ∧
    okCols (runJobs [] [asU, asX]) = some [[b!"id"], [b!"id"]] ∧
    okCols (runJobs [] [asX, asU]) = none := by decide +kernel

end Verif.Analysis
