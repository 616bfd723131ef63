import Verif.Generator.PropsGoTypes3
import Verif.Generator.PropsGoDecls2

/- C108: examples and exceptions. -/
namespace Verif.Generator.Scoped
open Verif.Analysis Verif.Postgres

/-- A record type with a method AfterScan. -/
def scannedTy : Ty :=
  .named { name := b!"User", pkg := some { path := b!"p", name := b!"p" }, isAfterScanner := true }
    (.struct (.cons { name := b!"Id", tag := [(b!"sql", [b!"id"])] } Analysis.intTy .nil))

/-- A named type of the package. -/
def ownTy (n : Bytes) (u : Ty) : Ty := .named { name := n, pkg := some { path := b!"p", name := b!"p" } } u

def relOf (n : Bytes) (t : Ty) : Analysis.Field := ({ name := n, tag := [(b!"rel", [b!"users:u"])] }, t)

/-- **C108** A select into a field of a named type of slices of pointers: a variable is declared for each row, scanned
into, AfterScan is called and it is appended. -/
theorem C108_example : ∃ q t c,
    pipeline env0 shopCat b!"SelectUsers" [relOf b!"Users" (ownTy b!"Users" (.slice (.ptr scannedTy)))] =
      some (q, t, some c) ∧
    rootInit q t = .newVar ∧ keepOf q t = .append ∧ afterScans q t = true ∧ (outputType q).isArray = false ∧
    q.result = none ∧ q.kind = .select ∧ q.rel.isDirective = false ∧ outputName q = b!"Users" := by
  obtain ⟨q, t, c, h1, h2⟩ := query_of (env := env0) (cat := shopCat) (n := b!"SelectUsers")
    (fs := [relOf b!"Users" (ownTy b!"Users" (.slice (.ptr scannedTy)))])
    (P := fun q t _ => decide (rootInit q t = .newVar ∧ keepOf q t = .append ∧ afterScans q t = true ∧
      (outputType q).isArray = false ∧ q.result = none ∧ q.kind = .select ∧ q.rel.isDirective = false ∧
      outputName q = b!"Users")) (by decide +kernel)
  exact ⟨q, t, c, h1, of_decide_eq_true h2⟩

/-- **C108** The theorem applies to this query. -/
theorem C108_example_typed (t : TargetInfo) : ∃ s b g,
    analyzeQuery env0 [] b!"SelectUsers" [relOf b!"Users" (ownTy b!"Users" (.slice (.ptr scannedTy)))] = .ok s ∧
    TypedOutput s.q t (ownTy b!"Users" (.slice (.ptr scannedTy))) b g := by
  have h : (match analyzeQuery env0 [] b!"SelectUsers"
        [relOf b!"Users" (ownTy b!"Users" (.slice (.ptr scannedTy)))] with
      | .ok s => decide (s.q.kind = .select) && !s.q.rel.isDirective && !(outputType s.q).isArray
      | _ => false) = true := by decide +kernel
  cases e : analyzeQuery env0 [] b!"SelectUsers" [relOf b!"Users" (ownTy b!"Users" (.slice (.ptr scannedTy)))] with
  | ok s =>
    rw [e] at h
    simp only [Bool.and_eq_true, decide_eq_true_eq, Bool.not_eq_true'] at h
    have hK : Distinct (fun x => x = ownTy b!"Users" (.slice (.ptr scannedTy))) := by
      intro x y hx hy _ _; rw [hx, hy]
    have hr : s.q.result = none → ¬ Recordless s.q.kind s.q.rel := by
      intro _ hr; simp [Recordless, h.1.1, h.1.2] at hr
    obtain ⟨f, hf, _, b, g, hb⟩ := C108_output hK (by simp [relOf]) (cacheFit_nil _) e t hr h.2
    simp only [List.mem_singleton] at hf
    subst hf
    exact ⟨s, b, g, rfl, hb⟩
  | _ => rw [e] at h; cases h

/-- **C108** A select whose rows are passed to a function. -/
theorem C108_example_visit : ∃ q t c,
    pipeline env0 shopCat b!"SelectUsers"
      [relOf b!"Each" (.func { params := 1, results := 1, errResult := true } scannedTy)] = some (q, t, some c) ∧
    rootInit q t = .declVar ∧ keepOf q t = .iterate ∧ (outputType q).isArray = false ∧ q.kind = .select := by
  obtain ⟨q, t, c, h1, h2⟩ := query_of (env := env0) (cat := shopCat) (n := b!"SelectUsers")
    (fs := [relOf b!"Each" (.func { params := 1, results := 1, errResult := true } scannedTy)])
    (P := fun q t _ => decide (rootInit q t = .declVar ∧ keepOf q t = .iterate ∧ (outputType q).isArray = false ∧
      q.kind = .select)) (by decide +kernel)
  exact ⟨q, t, c, h1, of_decide_eq_true h2⟩

/-- An insert of an array of records is accepted: the values are read from the fields of the array, which has none. -/
theorem C108_not_array : ∃ q t c,
    pipeline env0 shopCat b!"InsertUsers" [relOf b!"Users" (.array 2 scannedTy)] = some (q, t, some c) ∧
    c.args = [.sel (.sel (.ident b!"q") b!"Users") b!"Id"] ∧ ∀ g, ¬ Selects (.array 2 scannedTy) g := by
  obtain ⟨q, t, c, h1, h2⟩ := query_of (env := env0) (cat := shopCat) (n := b!"InsertUsers")
    (fs := [relOf b!"Users" (.array 2 scannedTy)])
    (P := fun _ _ c => decide (c.args = [.sel (.sel (.ident b!"q") b!"Users") b!"Id"])) (by decide +kernel)
  refine ⟨q, t, c, h1, of_decide_eq_true h2, ?_⟩
  rintro g (h | ⟨e, h, _⟩) <;> cases h

/-- A field of a named pointer type is accepted, and AfterScan is called on it: Go does not find the method. -/
theorem C108_not_method : ∃ q t c,
    pipeline env0 shopCat b!"SelectUser" [relOf b!"User" (ownTy b!"Ref" (.ptr scannedTy))] = some (q, t, some c) ∧
    afterScans q t = true ∧ outputVar q = .sel (.ident b!"q") b!"User" ∧
    ¬ Calls (ownTy b!"Ref" (.ptr scannedTy)) scannedTy := by
  obtain ⟨q, t, c, h1, h2⟩ := query_of (env := env0) (cat := shopCat) (n := b!"SelectUser")
    (fs := [relOf b!"User" (ownTy b!"Ref" (.ptr scannedTy))])
    (P := fun q t _ => decide (afterScans q t = true ∧ outputVar q = .sel (.ident b!"q") b!"User")) (by decide +kernel)
  have h2 := of_decide_eq_true h2
  refine ⟨q, t, c, h1, h2.1, h2.2, ?_⟩
  rintro ⟨_, h | h⟩
  · simp [ownTy, scannedTy] at h
  · simp [ownTy] at h

/-- A blank relation field is accepted in a select: the method refers to `q._`, which Go refuses. -/
theorem C108_not_blank : ∃ q t c,
    pipeline env0 shopCat b!"SelectUser" [relOf b!"_" scannedTy] = some (q, t, some c) ∧
    outputArgs q t = [.addr (.sel (.sel (.ident b!"q") b!"_") b!"Id")] := by
  obtain ⟨q, t, c, h1, h2⟩ := query_of (env := env0) (cat := shopCat) (n := b!"SelectUser")
    (fs := [relOf b!"_" scannedTy])
    (P := fun q t _ => decide (outputArgs q t = [.addr (.sel (.sel (.ident b!"q") b!"_") b!"Id")])) (by decide +kernel)
  exact ⟨q, t, c, h1, of_decide_eq_true h2⟩

end Verif.Generator.Scoped
