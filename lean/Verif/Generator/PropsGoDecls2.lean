import Verif.Generator.PropsGoDecls
import Verif.Config.PropsArgType

/- C107: the names of methods, an example and exceptions. -/
namespace Verif.Generator.Scoped
open Verif.Analysis Verif.Postgres Verif.Generator.Print

/-- The names of the fields of a struct. -/
def namesOf (fs : List Analysis.Field) : List Bytes := fs.map fun f => f.1.name

theorem all_word : ∀ (p : List SelNode), (∀ n ∈ p, isIdent n.name = true) →
    (nodeKey p).all (fun c => c.isAlphanum || c = '_') = true
  | [], _ => rfl
  | n :: p, h => by
    have h1 := h n (List.mem_cons_self ..)
    have h2 := all_word p fun m hm => h m (List.mem_cons_of_mem _ hm)
    rw [nodeKey, List.flatMap_cons, List.all_append, Bool.and_eq_true]
    refine ⟨?_, h2⟩
    cases hn : n.name with
    | nil => rfl
    | cons c cs =>
      rw [hn, isIdent, Bool.and_eq_true] at h1
      rw [List.all_cons, Bool.and_eq_true]
      refine ⟨?_, h1.2⟩
      have := h1.1
      simp only [Char.isAlphanum, Bool.or_eq_true, decide_eq_true_eq] at this ⊢
      grind

theorem ident_append {a b : Bytes} (ha : isIdent a = true) (hb : b.all (fun c => c.isAlphanum || c = '_') = true) :
    isIdent (a ++ b) = true := by
  cases a with
  | nil => cases ha
  | cons c cs =>
    rw [isIdent, Bool.and_eq_true] at ha
    rw [List.cons_append, isIdent, Bool.and_eq_true, List.all_append, Bool.and_eq_true]
    exact ⟨ha.1, ha.2, hb⟩

theorem ident_all {a : Bytes} (ha : isIdent a = true) : a.all (fun c => c.isAlphanum || c = '_') = true := by
  have := all_word [{ name := a, typeName := [], typePkgPath := [], typePkgName := [] }] (by simpa using ha)
  simpa [nodeKey] using this

/-- **C107** What is declared has an identifier for a name, if the names of types and fields and the configured name
of the query method are identifiers. -/
theorem C107_identifiers (pkg : Bytes) (conf : PrintConf) (fconf : FilterConf) (s : List Imp) (x : Source)
    (hm : isIdent conf.method = true) (ht : isIdent (typeOf x) = true)
    (hf : ∀ fs t, x = .filter fs t → ∀ f ∈ t.filters, isIdent f.field.name = true ∧
      ∀ n ∈ f.field.selector, isIdent n.name = true) :
    ∀ d ∈ declsOf pkg conf fconf s x, match d with
      | .var n => isIdent n = true
      | .method t n => isIdent t = true ∧ isIdent n = true := by
  intro d hd
  cases x with
  | query q t c =>
    simp only [declsOf, List.mem_singleton] at hd
    subst hd; exact ⟨ht, hm⟩
  | filter fs t =>
    rw [declsOf_filter] at hd
    rcases List.mem_cons.1 hd with rfl | hd
    · show isIdent (b!"_" ++ fs.typeName ++ b!"_colmap") = true
      rw [List.append_assoc]
      refine ident_append (by decide) ?_
      rw [List.all_append, Bool.and_eq_true]
      exact ⟨ident_all ht, by decide⟩
    · obtain ⟨n, hn, rfl⟩ := List.mem_map.1 hd
      refine ⟨ht, ?_⟩
      simp only [List.cons_append, List.mem_cons, List.mem_append, List.not_mem_nil, or_false, List.mem_map] at hn
      rcases hn with rfl | ⟨f, hf', rfl⟩ | rfl | rfl
      · decide
      · obtain ⟨h1, h2⟩ := hf fs t rfl f (List.mem_filter.1 hf').1
        cases hs : f.field.selector with
        | nil => simpa [methodName, nodeKey, hs] using h1
        | cons m ms =>
          rw [hs] at h2
          rw [methodName, hs, nodeKey, List.flatMap_cons, List.append_assoc]
          refine ident_append (h2 m (List.mem_cons_self ..)) ?_
          rw [List.all_append, ident_all h1, Bool.and_true]
          exact all_word ms fun k hk => h2 k (List.mem_cons_of_mem _ hk)
      · decide
      · decide

/-! ### Examples -/

theorem query_of {env : Env} {cat : Catalog} {n : Bytes} {fs : List Analysis.Field}
    {P : Query → TargetInfo → Code → Bool}
    (h : (pipeline env cat n fs).any (fun x => x.2.2.any (P x.1 x.2.1)) = true) :
    ∃ q t c, pipeline env cat n fs = some (q, t, some c) ∧ P q t c = true := by
  cases hp : pipeline env cat n fs with
  | none => rw [hp] at h; cases h
  | some x =>
    obtain ⟨q, t, g⟩ := x
    rw [hp] at h
    cases g with
    | none => cases h
    | some c => exact ⟨q, t, c, rfl, h⟩

theorem filter_pipeline_of {env : Env} {cat : Catalog} {n : Bytes} {fs : List Analysis.Field}
    {P : FilterStruct → TargetInfo → Bool} (h : (filterPipeline env cat n fs).any (fun x => P x.1 x.2) = true) :
    ∃ s t, filterPipeline env cat n fs = some (s, t) ∧ P s t = true := by
  cases hp : filterPipeline env cat n fs with
  | none => rw [hp] at h; cases h
  | some x => rw [hp] at h; exact ⟨x.1, x.2, rfl, h⟩

/-- The fields of the types of the example. -/
def demoQuery : List Analysis.Field := [relFld (.slice userTy)]
def demoFilter : List Analysis.Field :=
  filterStruct [] [sqlFld b!"Id" [b!"id"] Analysis.intTy, sqlFld b!"Name" [b!"name"] strTy]
def demoFields (t : Bytes) : List Bytes :=
  if t = b!"SelectUsers" then namesOf demoQuery else if t = b!"FilterUsers" then namesOf demoFilter else []

/-- **C107** A query and a filter: a variable and six methods, beside the types and their fields. -/
theorem C107_example : ∃ q t c fs ft, pipeline env0 shopCat b!"SelectUsers" demoQuery = some (q, t, some c) ∧
    filterPipeline env0 docCat b!"FilterUsers" demoFilter = some (fs, ft) ∧
    [Source.query q t c, .filter fs ft].flatMap (declsOf b!"p" {} {} []) =
      [.method b!"SelectUsers" b!"Exec", .var b!"_FilterUsers_colmap", .method b!"FilterUsers" b!"Init",
       .method b!"FilterUsers" b!"Id", .method b!"FilterUsers" b!"Name", .method b!"FilterUsers" b!"And",
       .method b!"FilterUsers" b!"Or"] ∧
    Coexist [b!"SelectUsers", b!"FilterUsers"] demoFields
      ([Source.query q t c, .filter fs ft].flatMap (declsOf b!"p" {} {} [])) := by
  obtain ⟨q, t, c, h1, h2⟩ := query_of (env := env0) (cat := shopCat) (n := b!"SelectUsers") (fs := demoQuery)
    (P := fun q _ _ => decide (q.typeName = b!"SelectUsers")) (by decide +kernel)
  obtain ⟨fs, ft, h3, h4⟩ := filter_pipeline_of (env := env0) (cat := docCat) (n := b!"FilterUsers") (fs := demoFilter)
    (P := fun fs ft => decide (declsOf b!"p" {} {} [] (.filter fs ft) =
      [.var b!"_FilterUsers_colmap", .method b!"FilterUsers" b!"Init",
       .method b!"FilterUsers" b!"Id", .method b!"FilterUsers" b!"Name", .method b!"FilterUsers" b!"And",
       .method b!"FilterUsers" b!"Or"])) (by decide +kernel)
  have h2 := of_decide_eq_true h2
  have h4 := of_decide_eq_true h4
  have h5 : [Source.query q t c, .filter fs ft].flatMap (declsOf b!"p" {} {} []) =
      [.method b!"SelectUsers" b!"Exec", .var b!"_FilterUsers_colmap", .method b!"FilterUsers" b!"Init",
       .method b!"FilterUsers" b!"Id", .method b!"FilterUsers" b!"Name", .method b!"FilterUsers" b!"And",
       .method b!"FilterUsers" b!"Or"] := by
    rw [List.flatMap_cons, List.flatMap_cons, h4, declsOf, h2]; rfl
  refine ⟨q, t, c, fs, ft, h1, h3, h5, ?_⟩
  rw [h5]
  refine ⟨by decide, ?_, ?_⟩
  · intro n hn
    simp only [List.mem_cons, reduceCtorEq, TopDecl.var.injEq, List.not_mem_nil, or_false, false_or] at hn
    subst hn; decide
  · intro a n hn
    simp only [List.mem_cons, reduceCtorEq, TopDecl.method.injEq, List.not_mem_nil, or_false, false_or] at hn
    rcases hn with ⟨rfl, rfl⟩ | ⟨rfl, rfl⟩ | ⟨rfl, rfl⟩ | ⟨rfl, rfl⟩ | ⟨rfl, rfl⟩ | ⟨rfl, rfl⟩ <;> decide +kernel

/-! ### Exceptions -/

/-- A field of a query struct may have the name of the method, here `Exec`: Go refuses the method. -/
theorem C107_not_exec : ∃ fs q t c, pipeline env0 shopCat b!"SelectUsers" fs = some (q, t, some c) ∧
    b!"Exec" ∈ namesOf fs ∧ q.typeName = b!"SelectUsers" ∧
    ∀ names fields, fields b!"SelectUsers" = namesOf fs →
      ¬ Coexist names fields (declsOf b!"p" {} {} [] (.query q t c)) := by
  obtain ⟨q, t, c, h1, h2⟩ := query_of (env := env0) (cat := shopCat) (n := b!"SelectUsers")
    (fs := [({ name := b!"Exec", tag := [(b!"rel", [b!"users:u"])] }, .slice userTy)])
    (P := fun q _ _ => decide (q.typeName = b!"SelectUsers")) (by decide +kernel)
  have h2 := of_decide_eq_true h2
  refine ⟨_, q, t, c, h1, by decide, h2, ?_⟩
  intro names fields hf h
  refine h.fields q.typeName b!"Exec" (by simp [declsOf]) ?_
  rw [h2, hf]; decide

/-- A field of the records may have the name of the field with the filter, which is often an embedded one: then the
filter type has a field and a method with this name. -/
theorem C107_not_field : ∃ fs s t, filterPipeline env0 docCat b!"FilterUsers" fs = some (s, t) ∧
    b!"FilterMaker" ∈ namesOf fs ∧ s.typeName = b!"FilterUsers" ∧
    ∀ names fields, fields b!"FilterUsers" = namesOf fs →
      ¬ Coexist names fields (declsOf b!"p" {} {} [] (.filter s t)) := by
  obtain ⟨s, t, h1, h2⟩ := filter_pipeline_of (env := env0) (cat := docCat) (n := b!"FilterUsers")
    (fs := filterStruct [] [sqlFld b!"FilterMaker" [b!"name"] strTy])
    (P := fun s t => decide (s.typeName = b!"FilterUsers" ∧
      TopDecl.method b!"FilterUsers" b!"FilterMaker" ∈ declsOf b!"p" {} {} [] (.filter s t))) (by decide +kernel)
  have h2 := of_decide_eq_true h2
  refine ⟨_, s, t, h1, by decide, h2.1, ?_⟩
  intro names fields hf h
  refine h.fields b!"FilterUsers" b!"FilterMaker" h2.2 ?_
  rw [hf]; decide

/-- The configured name of the query method is not looked at: it need not be an identifier. -/
theorem C107_not_identifier : ∃ c c' : Config.Config,
    Config.load [(b!"db", b!"x")] (some (.obj [(b!"method_name", .str b!"run it")])) = .ok c ∧
    (∀ ld, Config.validate ld c = .ok c') ∧ (c'.str .methodName).value = b!"run it" ∧
    isIdent (c'.str .methodName).value = false := by
  have h : ∃ c, Config.load [(b!"db", b!"x")] (some (.obj [(b!"method_name", .str b!"run it")])) = .ok c ∧
      (c.str .databaseDSN).value = b!"x" ∧ (c.str .methodName).value = b!"run it" ∧
      (c.str .filterColumnKeyTag).value = b!"json" ∧ (c.str .filterColumnKeySeparator).value = b!"." ∧
      (c.str .outputFileNameFormat).value = b!"%s_gosql.go" ∧ c.argType.text = Config.connText :=
    ⟨_, rfl, by decide +kernel⟩
  obtain ⟨c, h0, h1, h2, h3, h4, h5, h6⟩ := h
  refine ⟨c, { c with str := Config.upd c.str .outputFileNameFormat { c.str .outputFileNameFormat with value := b!"%s_gosql.go" } },
    h0, ?_, ?_, ?_⟩
  · intro ld
    have h7 : Config.validFormat b!"%s_gosql.go" = .ok b!"%s_gosql.go" := by decide +kernel
    have h8 : Config.rxKeyTag.matches b!"json" = true := by decide +kernel
    have h9 : Config.validArgType ld c.argType = .ok c.argType := (Config.C71_accepted ld _ _).2 (.inl ⟨h6, rfl⟩)
    simp [Config.validate, h1, h3, h4, h5, h7, h8, h9, Res.bind, Res.map]
  · simpa [Config.upd] using h2
  · simp only [Config.upd, reduceCtorEq, if_false, h2]; decide

end Verif.Generator.Scoped
