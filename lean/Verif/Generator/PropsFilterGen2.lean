import Verif.Generator.PropsFilterGen
import Verif.Generator.PropsImports
import Verif.Generator.PropsInit

/- C63: the methods of a filter type.  Examples for C44. -/
namespace Verif.Generator
open Verif.Analysis Verif.Postgres

theorem colMethods_eq (conf : FilterConf) : ∀ (fs : List FieldFilter) (s : List Imp),
    ((colMethods conf s fs).2.map fun m => (m.name, m.call (α := Unit) [] .nil)) =
      (fs.filter fun f => !reservedMethods.contains (methodName f.field)).map fun f =>
        (methodName f.field, some (.col (fmtColIdent conf.quote f.colIdent) [] .nil))
  | [], _ => rfl
  | f :: fs, s => by
    rw [colMethods, List.filter_cons]
    by_cases h : reservedMethods.contains (methodName f.field) = true
    · rw [if_pos h, h]; exact colMethods_eq conf fs s
    · rw [if_neg h]
      simp only [Bool.not_eq_true] at h
      simp only [h, Bool.not_false, if_true, List.map_cons, colMethods_eq conf fs]
      rfl

/-- Every method for a column comes from a field of the filter. -/
theorem colMethods_mem (conf : FilterConf) : ∀ (fs : List FieldFilter) (s : List Imp),
    ∀ m ∈ (colMethods conf s fs).2, ∃ f ∈ fs, ∃ ty,
      m = .col (methodName f.field) (fmtColIdent conf.quote f.colIdent) ty ∧
      methodName f.field ∉ reservedMethods
  | [], _ => by simp [colMethods]
  | f :: fs, s => by
    rw [colMethods]
    intro m hm
    by_cases h : reservedMethods.contains (methodName f.field) = true
    · rw [if_pos h] at hm
      obtain ⟨x, hx, r⟩ := colMethods_mem conf fs s m hm
      exact ⟨x, List.mem_cons_of_mem _ hx, r⟩
    · rw [if_neg h] at hm
      rcases List.mem_cons.1 hm with rfl | hm
      · exact ⟨f, List.mem_cons_self .., _, rfl, by simpa using h⟩
      · obtain ⟨x, hx, r⟩ := colMethods_mem conf fs _ m hm
        exact ⟨x, List.mem_cons_of_mem _ hx, r⟩

/-- The fields of the filter that get a method. -/
def methodFields (t : TargetInfo) : List FieldFilter :=
  t.filters.filter fun f => !reservedMethods.contains (methodName f.field)

theorem colMethods_names (conf : FilterConf) (fs : List FieldFilter) (s : List Imp) :
    (colMethods conf s fs).2.map Method.name =
      (fs.filter fun f => !reservedMethods.contains (methodName f.field)).map fun f =>
        methodName f.field := by
  have := congrArg (List.map Prod.fst) (colMethods_eq conf fs s)
  simpa [List.map_map, Function.comp_def] using this

/-- **C63** The methods are `Init`, one for each field that may be filtered by and has no reserved name, named
after the field and those it is nested in, and `And` and `Or`. -/
theorem C63_methods (pkg : Bytes) (conf : FilterConf) (s : List Imp) (fs : FilterStruct) (t : TargetInfo) :
    (filterCode pkg conf s fs t).2.map Method.name =
      b!"Init" :: (methodFields t).map (fun f => methodName f.field) ++ [b!"And", b!"Or"] := by
  simp only [filterCode, List.map_append, colMethods_names]
  rfl

/-- **C63** A method for a column compares an allowed column with the argument as it is, and nothing else. -/
theorem C63_condition {α : Type} {cat : Catalog} {fs : FilterStruct} {t : TargetInfo}
    (h : FilterBuilt cat fs t) (pkg : Bytes) (conf : FilterConf) (s : List Imp) :
    ∀ m ∈ (filterCode pkg conf s fs t).2, ∀ (op : Bytes) (val : Filter.Val α) (c : Filter.Call α),
      m.call op val = some c → ∃ f ∈ t.filters, m.name = methodName f.field ∧
        Allowed cat conf fs (fmtColIdent conf.quote f.colIdent) ∧
        ∀ cm ts b, c.requested cm ts b =
          (Filter.colPred (fmtColIdent conf.quote f.colIdent) op val).toList := by
  intro m hm op val c hc
  simp only [filterCode, List.cons_append, List.nil_append, List.mem_cons, List.mem_append,
    List.not_mem_nil, or_false] at hm
  rcases hm with rfl | hm | rfl | rfl
  · cases hc
  · obtain ⟨f, hf, ty, rfl, _⟩ := colMethods_mem conf _ _ m hm
    simp only [Method.call, Option.some.injEq] at hc
    subst hc
    exact ⟨f, hf, rfl, allowed_of_mem h conf hf, fun _ _ _ => rfl⟩
  · cases hc
  · cases hc

/-- **C63** The names of the methods are distinct if those of the fields are and none is that of another
method. -/
theorem C63_names_partial (pkg : Bytes) (conf : FilterConf) (s : List Imp) (fs : FilterStruct)
    (t : TargetInfo) (h : (t.filters.map fun f => methodName f.field).Nodup)
    (hn : ∀ f ∈ t.filters, methodName f.field ∉ [b!"Init", b!"And", b!"Or"]) :
    ((filterCode pkg conf s fs t).2.map Method.name).Nodup := by
  rw [C63_methods]
  have hsub : ((methodFields t).map fun f => methodName f.field).Sublist
      (t.filters.map fun f => methodName f.field) := (List.filter_sublist).map _
  have hmem : ∀ n ∈ (methodFields t).map (fun f => methodName f.field), n ∉ [b!"Init", b!"And", b!"Or"] := by
    intro n hm
    obtain ⟨f, hf, rfl⟩ := List.mem_map.1 hm
    exact hn f (List.mem_filter.1 hf).1
  rw [List.cons_append, List.nodup_cons, List.nodup_append]
  refine ⟨?_, h.sublist hsub, by decide, ?_⟩
  · rw [List.mem_append]
    rintro (hm | hm)
    · exact hmem _ hm (by decide)
    · exact absurd hm (by decide)
  · rintro a ha b hb rfl
    exact hmem a ha (List.mem_cons_of_mem _ hb)

/-! ### The types of the arguments -/

theorem colMethods_face (conf : FilterConf) : ∀ (fs : List FieldFilter) (s : List Imp),
    ∀ f ∈ s.map Imp.face, f ∈ (colMethods conf s fs).1.map Imp.face
  | [], _, _, h => h
  | x :: fs, s, f, h => by
    rw [colMethods]
    split
    · exact colMethods_face conf fs s f h
    · refine colMethods_face conf fs _ f ?_
      have key : ∀ (rs : List Request) (s : List Imp) (t : TypeInfo), f ∈ s.map Imp.face →
          f ∈ (importTypes s t rs).1.map Imp.face := by
        intro rs
        induction rs with
        | nil => intro s t h; exact h
        | cons r rs ih => intro s t h; exact ih _ _ (addImport_face s r f h)
      exact key _ _ _ h

/-- The literal of an imported named type. -/
theorem importTypes_named (s : List Imp) (t : TypeInfo) (hi : t.hdr.isImported = true)
    (hn : t.hdr.name.length > 0) :
    ∃ i : Imp, i.path = t.hdr.pkgPath ∧
      i.face ∈ (importTypes s t (importedTypes t)).1.map Imp.face ∧
      (i.name.length > 0 →
        literal (importTypes s t (importedTypes t)).2 true = i.name ++ b!"." ++ t.hdr.name) := by
  have hl : importedTypes t = [(t.hdr.pkgPath, t.hdr.pkgName)] := by
    cases t <;> simp only [TypeInfo.hdr] at hi <;> simp [importedTypes, hi, TypeInfo.hdr]
  rw [hl]
  obtain ⟨h1, h2⟩ := addImport_mem s (t.hdr.pkgPath, t.hdr.pkgName)
  refine ⟨_, h1, h2, fun h0 => ?_⟩
  cases t <;> simp only [TypeInfo.hdr] at hn h0 <;>
    simp [importTypes, setPkgName, literal, namedLiteral, hn, h0, TypeInfo.hdr]

/-- **C63** An argument of an imported type has that type: it is written with the name that the package has in
the file. -/
theorem C63_imported (conf : FilterConf) : ∀ (fs : List FieldFilter) (s : List Imp) (f : FieldFilter),
    f ∈ fs → f.field.type.hdr.isImported = true → f.field.type.hdr.name.length > 0 →
    methodName f.field ∉ reservedMethods →
    ∃ i : Imp, i.path = f.field.type.hdr.pkgPath ∧ i.face ∈ (colMethods conf s fs).1.map Imp.face ∧
      (i.name.length > 0 →
        .col (methodName f.field) (fmtColIdent conf.quote f.colIdent)
          (i.name ++ b!"." ++ f.field.type.hdr.name) ∈ (colMethods conf s fs).2)
  | [], _, _, hf, _, _, _ => absurd hf (by simp)
  | x :: fs, s, f, hf, hi, hn, hr => by
    rw [colMethods]
    rcases List.mem_cons.1 hf with rfl | hf
    · have hc : ¬reservedMethods.contains (methodName f.field) = true := by simpa using hr
      rw [if_neg hc]
      obtain ⟨i, h1, h2, h3⟩ := importTypes_named s f.field.type hi hn
      refine ⟨i, h1, colMethods_face conf fs _ _ h2, fun h0 => ?_⟩
      rw [← h3 h0]
      exact List.mem_cons_self ..
    · split
      · exact C63_imported conf fs s f hf hi hn hr
      · obtain ⟨i, h1, h2, h3⟩ := C63_imported conf fs
          (importTypes s x.field.type (importedTypes x.field.type)).1 f hf hi hn hr
        exact ⟨i, h1, h2, fun h0 => List.mem_cons_of_mem _ (h3 h0)⟩

/-! ### Examples -/

/-- Analysis and type checking of a filter struct. -/
def filterPipeline (env : Env) (cat : Catalog) (n : Bytes) (fs : List Analysis.Field) :
    Option (FilterStruct × TargetInfo) :=
  match analyzeFilter env [] n fs with
  | .ok (s, _) =>
    match checkFilter cat s with
    | .ok t => some (s, t)
    | _ => none
  | _ => none

theorem filter_of {env : Env} {cat : Catalog} {n : Bytes} {fs : List Analysis.Field}
    {P : FilterStruct → TargetInfo → Bool}
    (h : (filterPipeline env cat n fs).any (fun x => P x.1 x.2) = true) :
    ∃ s t, FilterBuilt cat s t ∧ P s t = true := by
  unfold filterPipeline at h
  cases ha : analyzeFilter env [] n fs with
  | ok r =>
    obtain ⟨s, c⟩ := r
    rw [ha] at h
    simp only at h
    cases hc : checkFilter cat s with
    | ok t =>
      rw [hc] at h
      exact ⟨s, t, ⟨⟨env, [], n, fs, c, ha⟩, hc⟩, h⟩
    | err e => rw [hc] at h; cases h
    | panic => rw [hc] at h; cases h
  | err e => rw [ha] at h; cases h
  | panic => rw [ha] at h; cases h

/-- An embedded filter constructor. -/
def makerFld (tag : Tag) : Analysis.Field :=
  ({ name := b!"FilterMaker", embedded := true, tag := tag },
    .named { name := b!"FilterMaker", pkg := some { path := b!"c", name := b!"c" }
             isFilterConstructor := true } (.struct .nil))

/-- A filter struct with a record of the given fields. -/
def filterStruct (tag : Tag) (fs : List Analysis.Field) : List Analysis.Field :=
  [relFld (structTy b!"Rec" fs), makerFld tag]

/-- users (id integer not null, name text, data json). -/
def docCat : Catalog :=
  { types := [Postgres.intTy, textTy, { oid := Oid.json, nameFmt := b!"json", category := 'U' }]
    rels := [(b!"users",
        { columns := [{ num := 1, name := b!"id", typeOid := Oid.int4, hasNotNull := true },
                      { num := 2, name := b!"name", typeOid := Oid.text },
                      { num := 3, name := b!"data", typeOid := Oid.json }] })] }

def tagFld (n col json : Bytes) (t : Ty) : Analysis.Field :=
  ({ name := n, tag := [(b!"sql", [col]), (b!"json", [json])] }, t)

/-- **C44** Two fields have the key `n`, one has none, one is excluded and one is no column. -/
theorem C44_example : ∃ s t, FilterBuilt docCat s t ∧
    columnMap {} s t = [{ key := b!"n", column := b!"u.id" }] ∧
    columnMap { quote := true } s t = [{ key := b!"n", column := b!"u.\"id\"" }] ∧
    t.filters.length = 3 := by
  have := filter_of (env := { pkgPath := b!"p", keyTag := b!"json" }) (cat := docCat) (n := b!"FilterUsers")
    (fs := filterStruct [] [tagFld b!"Id" b!"id" b!"n" Analysis.intTy, tagFld b!"Name" b!"name" b!"n" strTy,
      tagFld b!"Alias" b!"name" b!"-" strTy,
      ({ name := b!"Secret", tag := [(b!"sql", [b!"name", b!"xf"]), (b!"json", [b!"s"])] }, strTy),
      tagFld b!"Other" b!"other" b!"o" strTy])
    (P := fun s t => decide (columnMap {} s t = [{ key := b!"n", column := b!"u.id" }] ∧
      columnMap { quote := true } s t = [{ key := b!"n", column := b!"u.\"id\"" }] ∧
      t.filters.length = 3)) (by decide +kernel)
  obtain ⟨s, t, h, hp⟩ := this
  exact ⟨s, t, h, by simpa using hp⟩

/-- A named type of the package `path`. -/
def pkgTy (path pkg n : Bytes) (u : Ty) : Ty := .named { name := n, pkg := some { path := path, name := pkg } } u

/-- What the examples look at: the imports and the methods. -/
def filterOut (conf : FilterConf) (s : FilterStruct) (t : TargetInfo) :
    List (Bytes × Bytes × Bool) × List Method :=
  ((filterCode b!"p" conf [] s t).1.map Imp.face, (filterCode b!"p" conf [] s t).2)

/-- **C63** A field of an imported type, a nested one and one with a reserved name. -/
theorem C63_example : ∃ s t, FilterBuilt docCat s t ∧
    filterOut {} s t = ([(b!"a/x", b!"x", false)],
      [.init, .col b!"Id" b!"u.id" b!"int", .col b!"InName" b!"u.name" b!"x.Name",
        .bool b!"And", .bool b!"Or"]) := by
  have := filter_of (env := env0) (cat := docCat) (n := b!"FilterUsers")
    (fs := filterStruct [] [sqlFld b!"Id" [b!"id"] Analysis.intTy,
      nestFld b!"In" (structTy b!"T" [sqlFld b!"Name" [b!"name"] (pkgTy b!"a/x" b!"x" b!"Name" strTy)]),
      sqlFld b!"TextSearch" [b!"name"] strTy])
    (P := fun s t => decide (filterOut {} s t = ([(b!"a/x", b!"x", false)],
      [.init, .col b!"Id" b!"u.id" b!"int", .col b!"InName" b!"u.name" b!"x.Name",
        .bool b!"And", .bool b!"Or"]))) (by decide +kernel)
  obtain ⟨s, t, h, hp⟩ := this
  exact ⟨s, t, h, by simpa using hp⟩

/-- **C44** The second version: the function that converts values, and what may be NULL. -/
theorem C44_example_v2 : ∃ s t, FilterBuilt docCat s t ∧
    columnMap { converters := [(b!"a/x.Name", ⟨b!"conv", b!"Fix"⟩)] } s t =
      [{ key := b!"Id", column := b!"u.id" },
       { key := b!"Name", column := b!"u.name", conv := some ⟨b!"conv", b!"Fix"⟩, nullable := true }] := by
  have := filter_of (env := env0) (cat := docCat) (n := b!"FilterUsers")
    (fs := filterStruct [(b!"filter", [b!"v2"])] [sqlFld b!"Id" [b!"id"] Analysis.intTy,
      sqlFld b!"Name" [b!"name"] (pkgTy b!"a/x" b!"x" b!"Name" strTy)])
    (P := fun s t => decide (columnMap { converters := [(b!"a/x.Name", ⟨b!"conv", b!"Fix"⟩)] } s t =
      [{ key := b!"Id", column := b!"u.id" },
       { key := b!"Name", column := b!"u.name", conv := some ⟨b!"conv", b!"Fix"⟩, nullable := true }]))
    (by decide +kernel)
  obtain ⟨s, t, h, hp⟩ := this
  exact ⟨s, t, h, by simpa using hp⟩

/-- **C63** A field named `Init`: the type has two methods of that name. -/
theorem C63_not_init : ∃ s t, FilterBuilt docCat s t ∧
    (filterCode b!"p" {} [] s t).2.map Method.name = [b!"Init", b!"Init", b!"And", b!"Or"] := by
  have := filter_of (env := env0) (cat := docCat) (n := b!"FilterUsers")
    (fs := filterStruct [] [sqlFld b!"Init" [b!"name"] strTy])
    (P := fun s t => decide ((filterCode b!"p" {} [] s t).2.map Method.name =
      [b!"Init", b!"Init", b!"And", b!"Or"])) (by decide +kernel)
  obtain ⟨s, t, h, hp⟩ := this
  exact ⟨s, t, h, by simpa using hp⟩

/-- **C63** Fields whose paths have the same concatenation. -/
theorem C63_not_concat : ∃ s t, FilterBuilt docCat s t ∧
    (filterCode b!"p" {} [] s t).2.map Method.name = [b!"Init", b!"ABC", b!"ABC", b!"And", b!"Or"] := by
  have := filter_of (env := env0) (cat := docCat) (n := b!"FilterUsers")
    (fs := filterStruct [] [nestFld b!"A" (structTy b!"T" [sqlFld b!"BC" [b!"name"] strTy]),
      nestFld b!"AB" (structTy b!"U" [sqlFld b!"C" [b!"id"] Analysis.intTy])])
    (P := fun s t => decide ((filterCode b!"p" {} [] s t).2.map Method.name =
      [b!"Init", b!"ABC", b!"ABC", b!"And", b!"Or"])) (by decide +kernel)
  obtain ⟨s, t, h, hp⟩ := this
  exact ⟨s, t, h, by simpa using hp⟩

/-- **C63** An argument whose type is declared in the package of the filter type is written with the name of
that package, which is not imported. -/
theorem C63_not_local : ∃ s t, FilterBuilt docCat s t ∧
    filterOut {} s t = ([], [.init, .col b!"Name" b!"u.name" b!"p.Name", .bool b!"And", .bool b!"Or"]) := by
  have := filter_of (env := env0) (cat := docCat) (n := b!"FilterUsers")
    (fs := filterStruct [] [sqlFld b!"Name" [b!"name"] (pkgTy b!"p" b!"p" b!"Name" strTy)])
    (P := fun s t => decide (filterOut {} s t =
      ([], [.init, .col b!"Name" b!"u.name" b!"p.Name", .bool b!"And", .bool b!"Or"]))) (by decide +kernel)
  obtain ⟨s, t, h, hp⟩ := this
  exact ⟨s, t, h, by simpa using hp⟩

/-- **C63** A pointer to a type of a package whose import was renamed: the type is written with the original
name, which is that of another package. -/
theorem C63_not_renamed : ∃ s t, FilterBuilt docCat s t ∧
    filterOut {} s t = ([(b!"a/x", b!"x", false), (b!"b/x", b!"x1", true)],
      [.init, .col b!"Id" b!"u.id" b!"x.Id", .col b!"Name" b!"u.data" b!"x.Name",
        .bool b!"And", .bool b!"Or"]) := by
  have := filter_of (env := env0) (cat := docCat) (n := b!"FilterUsers")
    (fs := filterStruct [] [sqlFld b!"Id" [b!"id"] (pkgTy b!"a/x" b!"x" b!"Id" Analysis.intTy),
      sqlFld b!"Name" [b!"data"] (.ptr (pkgTy b!"b/x" b!"x" b!"Name" (.struct .nil)))])
    (P := fun s t => decide (filterOut {} s t = ([(b!"a/x", b!"x", false), (b!"b/x", b!"x1", true)],
      [.init, .col b!"Id" b!"u.id" b!"x.Id", .col b!"Name" b!"u.data" b!"x.Name",
        .bool b!"And", .bool b!"Or"]))) (by decide +kernel)
  obtain ⟨s, t, h, hp⟩ := this
  exact ⟨s, t, h, by simpa using hp⟩

/-- **C63** A value that the database only takes in converted form: the method passes it as it is. -/
theorem C63_not_converted : ∃ s t, FilterBuilt docCat s t ∧
    (t.filters.map fun f => (f.field.name, f.valuer)) = [(b!"Data", b!"JSON")] ∧
    filterOut {} s t = ([(b!"a/x", b!"x", false)],
      [.init, .col b!"Data" b!"u.data" b!"x.Data", .bool b!"And", .bool b!"Or"]) := by
  have := filter_of (env := env0) (cat := docCat) (n := b!"FilterUsers")
    (fs := filterStruct [] [sqlFld b!"Data" [b!"data"] (pkgTy b!"a/x" b!"x" b!"Data" (.struct .nil))])
    (P := fun s t => decide ((t.filters.map fun f => (f.field.name, f.valuer)) = [(b!"Data", b!"JSON")] ∧
      filterOut {} s t = ([(b!"a/x", b!"x", false)],
      [.init, .col b!"Data" b!"u.data" b!"x.Data", .bool b!"And", .bool b!"Or"]))) (by decide +kernel)
  obtain ⟨s, t, h, hp⟩ := this
  exact ⟨s, t, h, by simpa using hp⟩

end Verif.Generator
