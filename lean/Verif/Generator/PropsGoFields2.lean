import Verif.Generator.PropsGoTypes4

/- C109: the fields that a generated method selects. -/
namespace Verif.Generator.Scoped
open Verif.Analysis Verif.Postgres

theorem Leads.at {fs : Fields} {a b : List SelNode} {s : SelNode} {n : Bytes} {T : Ty} (h : Leads fs (a ++ s :: b) n T) :
    ∃ T', Leads fs a s.name T' ∧ Describes s T' := by
  induction a generalizing fs with
  | nil =>
    cases h with
    | step hm hn h1 h2 h3 h4 => exact ⟨_, h1 ▸ .field hm hn, h3⟩
  | cons x a ih =>
    cases h with
    | step hm hn h1 h2 h3 h4 =>
      obtain ⟨T', e1, e2⟩ := ih h4
      exact ⟨T', .step hm hn h1 h2 h3 e1, e2⟩

theorem nodeInits_mem (sel : List SelNode) : ∀ (done : List Bytes) (p : List SelNode) {x : PtrInit},
    x ∈ (nodeInits done p sel).1 → ∃ a s b, sel = a ++ s :: b ∧ s.isPointer = true ∧ x = p ++ a ++ [s] := by
  induction sel with
  | nil => intro done p x h; simp [nodeInits] at h
  | cons n ns ih =>
    intro done p x h
    have next : ∀ d, x ∈ (nodeInits d (p ++ [n]) ns).1 →
        ∃ a s b, n :: ns = a ++ s :: b ∧ s.isPointer = true ∧ x = p ++ a ++ [s] := by
      intro d h
      obtain ⟨a, s, b, h1, h2, h3⟩ := ih _ _ h
      exact ⟨n :: a, s, b, by rw [h1]; rfl, h2, by rw [h3]; simp⟩
    rw [nodeInits] at h
    split at h
    · next hp =>
      rcases List.mem_cons.1 h with h | h
      · simp only [Bool.and_eq_true] at hp
        exact ⟨[], n, ns, rfl, hp.1, by simpa using h⟩
      · exact next _ h
    · exact next _ h

theorem readInits_mem (rs : List FieldRead) : ∀ (done : List Bytes) {x : PtrInit}, x ∈ readInits done rs →
    ∃ r ∈ rs, ∃ a s b, r.field.selector = a ++ s :: b ∧ s.isPointer = true ∧ x = a ++ [s] := by
  induction rs with
  | nil => intro done x h; simp [readInits] at h
  | cons r rs ih =>
    intro done x h
    simp only [readInits, List.mem_append] at h
    rcases h with h | h
    · obtain ⟨a, s, b, h⟩ := nodeInits_mem _ _ _ h
      exact ⟨r, List.mem_cons_self, a, s, b, by simpa using h⟩
    · obtain ⟨r', hr, h⟩ := ih _ h
      exact ⟨r', List.mem_cons_of_mem _ hr, h⟩

/-- `x.A.B = new(T)`: B is a field of the struct that the selectors before lead to, it is a pointer, and if it points to
a named type, this is T. -/
def Points (fs : Fields) (p : PtrInit) : Prop :=
  ∃ a s T e, p = a ++ [s] ∧ Leads fs a s.name T ∧ bare T = .ptr e ∧
    ∀ i u, e = .named i u → isNamed u = false → s.typeName = i.name ∧ ∃ k, i.pkg = some k ∧ s.typePkgPath = k.path

/-- **C109** The fields that the method of an accepted query scans into are fields of the records: the selectors lead
from the struct through fields of struct types or pointers to them.  Where a pointer is set before, it is the field that
the selectors lead to, it is a pointer, and what is made is what it points to. -/
theorem C109_scan {K : Ty → Prop} (hK : Distinct K) {env : Env} {cache : Cache} {n : Bytes} {fs : List Analysis.Field}
    {s : St} (hF : ∀ f ∈ fs, K f.2) (hc : CacheFit K cache) (e : analyzeQuery env cache n fs = .ok s) {cat : Catalog}
    {t : TargetInfo} (hb : Built cat s.q t) (hr : s.q.result = none → ¬ Recordless s.q.kind s.q.rel) :
    ∃ f ∈ fs, f.1.name = outputName s.q ∧ ∃ b g, Fit f.2 (outputType s.q) b g ∧
      (∀ r ∈ t.reads, ∃ T, Leads g r.field.selector r.field.name T) ∧ ∀ p ∈ fieldInits s.q t, Points g p := by
  obtain ⟨h1, h2, _⟩ := C108_analysed hK hF hc e
  have key : Declared fs (outputName s.q) (outputType s.q) := by
    unfold outputName outputType
    cases hq : s.q.result with
    | none => exact h1.resolve_left (hr hq)
    | some x => exact h2 x hq
  obtain ⟨f, hf, hn, b, g, h⟩ := key
  have hl : ∀ r ∈ t.reads, ∃ T, Leads g r.field.selector r.field.name T :=
    fun r hr => h.fields _ (reads_output hb r hr)
  refine ⟨f, hf, hn, b, g, h, hl, ?_⟩
  intro p hp
  unfold fieldInits at hp
  split at hp
  · cases hp
  · obtain ⟨r, hr, a, x, c, e1, e2, e3⟩ := readInits_mem _ _ hp
    obtain ⟨T, hT⟩ := hl r hr
    rw [e1] at hT
    obtain ⟨T', h3, h4⟩ := hT.at
    obtain ⟨d, hd⟩ := h4.1.1 e2
    exact ⟨a, x, T', d, e3, h3, hd, fun i u he hu => h4.2 i u (by rw [hd, he]) hu⟩

/-- **C109** So are the fields whose values are written. -/
theorem C109_write {K : Ty → Prop} (hK : Distinct K) {env : Env} {cache : Cache} {n : Bytes} {fs : List Analysis.Field}
    {s : St} (hF : ∀ f ∈ fs, K f.2) (hc : CacheFit K cache) (e : analyzeQuery env cache n fs = .ok s) {cat : Catalog}
    {t : TargetInfo} (hq : checkQuery cat s.q = .ok t) (hr : ¬ Recordless s.q.kind s.q.rel) :
    ∃ f ∈ fs, f.1.name = s.q.rel.fieldName ∧ ∃ b g, Fit f.2 s.q.rel.type b g ∧
      ∀ w ∈ t.writes, ∃ T, Leads g w.field.selector w.field.name T := by
  obtain ⟨h1, _, _⟩ := C108_analysed hK hF hc e
  obtain ⟨f, hf, hn, b, g, h⟩ := h1.resolve_left hr
  exact ⟨f, hf, hn, b, g, h, fun w hw => h.fields _ (List.mem_of_getElem? ((C49_writes hq).1 w hw).1)⟩

/-- A record with an address: of a type of the package, of one of another package, behind a pointer, or unnamed. -/
def withAddr (a : Ty) : Ty :=
  structTy b!"User" [sqlFld b!"Addr" [b!">"] a]

def placeTy (pkg : Bytes) (exported : Bool) : Ty :=
  .named { name := b!"Place", pkg := some { path := pkg, name := pkg } }
    (.struct (.cons { name := if exported then b!"Id" else b!"id", exported := exported, tag := [(b!"sql", [b!"id"])] } Analysis.intTy .nil))

/-- **C109** A select into records with a pointer to another struct: the pointer is set and its field is scanned into. -/
theorem C109_example : ∃ q t c,
    pipeline env0 shopCat b!"SelectUsers" [relOf b!"Users" (.slice (withAddr (.ptr (placeTy b!"m" true))))] =
      some (q, t, some c) ∧
    (fieldInits q t).map (·.map fun s => (s.name, s.typeName, s.typePkgPath)) = [[(b!"Addr", b!"Place", b!"m")]] ∧
    outputArgs q t = [.addr (.sel (.sel (.ident b!"v") b!"Addr") b!"Id")] := by
  obtain ⟨q, t, c, h1, h2⟩ := query_of (env := env0) (cat := shopCat) (n := b!"SelectUsers")
    (fs := [relOf b!"Users" (.slice (withAddr (.ptr (placeTy b!"m" true))))])
    (P := fun q t _ => decide (
      (fieldInits q t).map (·.map fun s => (s.name, s.typeName, s.typePkgPath)) = [[(b!"Addr", b!"Place", b!"m")]] ∧
      outputArgs q t = [.addr (.sel (.sel (.ident b!"v") b!"Addr") b!"Id")])) (by decide +kernel)
  exact ⟨q, t, c, h1, of_decide_eq_true h2⟩

/-- **C109** Its selectors lead to the field. -/
theorem C109_example_leads :
    ∃ fs s, under (withAddr (.ptr (placeTy b!"m" true))) = .struct fs ∧ s.name = b!"Addr" ∧ s.isPointer = true ∧
      Leads fs [s] b!"Id" Analysis.intTy ∧ ∀ T, ¬ Leads fs [] b!"Id" T := by
  refine ⟨_, { name := b!"Addr", isPointer := true, typeName := b!"Place", typePkgPath := b!"m" }, rfl, rfl, rfl, ?_, ?_⟩
  · refine .step (h := (sqlFld b!"Addr" [b!">"] (.ptr (placeTy b!"m" true))).1) (t := .ptr (placeTy b!"m" true))
      List.mem_cons_self (by decide) rfl rfl ⟨by simp [bare], ?_⟩ ?_
    · intro i u h _
      simp only [bare, placeTy, Ty.ptr.injEq, Ty.named.injEq] at h
      obtain ⟨rfl, _⟩ := h
      exact ⟨rfl, _, rfl, rfl⟩
    · exact .field (h := { name := b!"Id", exported := true, tag := [(b!"sql", [b!"id"])] }) List.mem_cons_self (by decide)
  · intro T h
    generalize hn : b!"Id" = n at h
    cases h with
    | field hm _ =>
      simp [Fields.ofList, Fields.toList, sqlFld] at hm
      rw [hm.1] at hn
      exact absurd hn (by decide)

/-- A field that points to a struct type without a name is accepted: the method sets it to `new()`, which Go refuses. -/
theorem C109_not_new : ∃ q t c,
    pipeline env0 shopCat b!"SelectUsers" [relOf b!"Users" (.slice (withAddr (.ptr (under (placeTy b!"p" true)))))] =
      some (q, t, some c) ∧
    (fieldInits q t).flatMap (Print.ptrInitText [] q) = b!"v.Addr = new()\n" := by
  obtain ⟨q, t, c, h1, h2⟩ := query_of (env := env0) (cat := shopCat) (n := b!"SelectUsers")
    (fs := [relOf b!"Users" (.slice (withAddr (.ptr (under (placeTy b!"p" true)))))])
    (P := fun q t _ => decide ((fieldInits q t).flatMap (Print.ptrInitText [] q) = b!"v.Addr = new()\n")) (by decide +kernel)
  exact ⟨q, t, c, h1, of_decide_eq_true h2⟩

/-- The analysis leaves out the unexported fields of structs of other packages, which the generated code may not use, but
not if they are behind a pointer: the method refers to the field `id` of a struct of package m. -/
theorem C109_not_exported :
    (∃ q t c, pipeline env0 shopCat b!"SelectUsers" [relOf b!"Users" (.slice (withAddr (.ptr (placeTy b!"m" false))))] =
        some (q, t, some c) ∧ outputArgs q t = [.addr (.sel (.sel (.ident b!"v") b!"Addr") b!"id")]) ∧
    (match analyzeQuery env0 [] b!"SelectUsers" [relOf b!"Users" (.slice (withAddr (placeTy b!"m" false)))] with
     | .ok s => decide (s.q.rel.type.fields = [])
     | _ => false) = true := by
  constructor
  · obtain ⟨q, t, c, h1, h2⟩ := query_of (env := env0) (cat := shopCat) (n := b!"SelectUsers")
      (fs := [relOf b!"Users" (.slice (withAddr (.ptr (placeTy b!"m" false))))])
      (P := fun q t _ => decide (outputArgs q t = [.addr (.sel (.sel (.ident b!"v") b!"Addr") b!"id")])) (by decide +kernel)
    exact ⟨q, t, c, h1, of_decide_eq_true h2⟩
  · decide +kernel

end Verif.Generator.Scoped
