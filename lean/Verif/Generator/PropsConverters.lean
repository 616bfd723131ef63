import Verif.Config.Props
import Verif.Config.PropsText
import Verif.Generator.Converters
import Verif.Generator.PropsFilterGen2
import Verif.Generator.PropsQuals2

/- C98: which function converts the values of a filter's column. -/
namespace Verif.Generator
open Verif.Analysis Verif.Config Verif.Postgres

/-- `F` is the function that the last entry for the type `n` of the package `p` names. -/
def Configured (cs : List Converter) (p n : Bytes) (F : GoIdent) : Prop :=
  ∃ a c b, cs = a ++ c :: b ∧ c.type.pkgPath = p ∧ c.type.name = n ∧ F = ⟨c.func.pkgPath, c.func.name⟩ ∧
    ∀ d ∈ b, ¬(d.type.pkgPath = p ∧ d.type.name = n)

/-- Names have no dots: so it is for the names in a program. -/
def Dotless (cs : List Converter) : Prop := ∀ c ∈ cs, '.' ∉ c.type.name

/-! ### The map -/

theorem lookup_filter_ne (k : Bytes) : ∀ (m : ConverterMap) (k' : Bytes), k' ≠ k →
    (m.filter fun e => e.1 ≠ k).lookup k' = m.lookup k'
  | [], _, _ => rfl
  | (k0, v) :: m, k', h => by
    by_cases h0 : k0 = k
    · subst h0
      have : (k' == k0) = false := by simpa using h
      simpa [List.lookup, this] using lookup_filter_ne k0 m k' h
    · by_cases h1 : k' = k0
      · subst h1; simp [h, List.lookup]
      · have : (k' == k0) = false := by simpa using h1
        simpa [h0, List.lookup, this] using lookup_filter_ne k m k' h

theorem lookup_assign (m : ConverterMap) (k k' : Bytes) (id : GoIdent) :
    (assignConverter m k id).lookup k' = if k' = k then some id else m.lookup k' := by
  by_cases h : k' = k
  · subst h; simp [assignConverter, List.lookup]
  · have hb : (k' == k) = false := by simpa using h
    rw [assignConverter, List.lookup, hb, if_neg h]
    exact lookup_filter_ne k m k' h

/-- The last dot of a key is the one between the path and the name. -/
theorem key_inj : ∀ {p n p' n' : Bytes}, '.' ∉ n → '.' ∉ n' → p ++ b!"." ++ n = p' ++ b!"." ++ n' →
    p = p' ∧ n = n' := by
  intro p n p' n' hn hn' h
  have h1 := lastSplit_append p hn
  have h2 := lastSplit_append p' hn'
  have h' : p ++ '.' :: n = p' ++ '.' :: n' := by simpa using h
  rw [h', h2] at h1
  simpa [eq_comm] using h1

theorem analyze_lookup (p n : Bytes) (hn : '.' ∉ n) : ∀ (cs : List Converter) (m : ConverterMap), Dotless cs →
    ((∀ F, ¬Configured cs p n F) ∧ (analyzeConverters m cs).lookup (p ++ b!"." ++ n) = m.lookup (p ++ b!"." ++ n)) ∨
    ∃ F, Configured cs p n F ∧ (analyzeConverters m cs).lookup (p ++ b!"." ++ n) = some F
  | [], m, _ => Or.inl ⟨by rintro F ⟨a, c, b, h, _⟩; simp at h, rfl⟩
  | c :: cs, m, hd => by
    have hd' : Dotless cs := fun x hx => hd x (by simp [hx])
    have hc := hd c (by simp)
    rw [analyzeConverters]
    rcases analyze_lookup p n hn cs
      (assignConverter m (c.type.pkgPath ++ b!"." ++ c.type.name) ⟨c.func.pkgPath, c.func.name⟩) hd' with h | h
    · obtain ⟨h1, h2⟩ := h
      rw [h2, lookup_assign]
      by_cases hk : c.type.pkgPath = p ∧ c.type.name = n
      · right
        refine ⟨_, ⟨[], c, cs, rfl, hk.1, hk.2, rfl, ?_⟩, by rw [hk.1, hk.2, if_pos rfl]⟩
        intro d hdm hdk
        -- the last entry of `cs` for the type would be configured
        exact absurd hdk (by
          intro hdk
          have : ∀ (l : List Converter), (∃ d ∈ l, d.type.pkgPath = p ∧ d.type.name = n) →
              ∃ F, Configured l p n F := by
            intro l
            induction l with
            | nil => rintro ⟨_, h, _⟩; simp at h
            | cons x xs ih =>
              intro ⟨d, hm, hdk⟩
              by_cases hx : ∃ d ∈ xs, d.type.pkgPath = p ∧ d.type.name = n
              · obtain ⟨F, a, y, b, he, r⟩ := ih hx
                exact ⟨F, x :: a, y, b, by rw [he]; rfl, r⟩
              · rcases List.mem_cons.1 hm with rfl | hm
                · exact ⟨_, [], d, xs, rfl, hdk.1, hdk.2, rfl, fun y hy hk => hx ⟨y, hy, hk⟩⟩
                · exact absurd ⟨d, hm, hdk⟩ hx
          obtain ⟨F, hF⟩ := this cs ⟨d, hdm, hdk⟩
          exact h1 F hF)
      · left
        refine ⟨?_, ?_⟩
        · rintro F ⟨a, x, b, he, hx1, hx2, hx3, hx4⟩
          cases a with
          | nil =>
            simp only [List.nil_append, List.cons.injEq] at he
            obtain ⟨rfl, rfl⟩ := he
            exact hk ⟨hx1, hx2⟩
          | cons y a =>
            simp only [List.cons_append, List.cons.injEq] at he
            exact h1 F ⟨a, x, b, he.2, hx1, hx2, hx3, hx4⟩
        · rw [if_neg]
          intro he
          obtain ⟨e1, e2⟩ := key_inj hn hc he
          exact hk ⟨e1.symm, e2.symm⟩
    · obtain ⟨F, ⟨a, x, b, he, r⟩, h2⟩ := h
      exact Or.inr ⟨F, ⟨c :: a, x, b, by rw [he]; rfl, r⟩, h2⟩

/-! ### The configuration -/

/-- An object as the file gives it: not at all, or with a path and a name. -/
def Given (o : ObjectIdent) : Prop := o = {} ∨ (ObjPath o.pkgPath ∧ Ident o.name)

theorem jsonObject_given {o o' : ObjectIdent} {j : Json} (ho : Given o) (h : jsonObject o j = .ok o') : Given o' := by
  unfold jsonObject at h
  split at h
  · cases h; exact ho
  · split at h
    · cases h; exact ho
    · rename_i s
      by_cases hs : s = []
      · subst hs; rw [setObject] at h; simp at h; rw [← h]; exact ho
      · exact Or.inr (C51_object_text hs h).2
    · cases h

theorem converterKey_given {c c' : Converter} {n : Bytes} {j : Json} (hc : Given c.type ∧ Given c.func)
    (h : converterKey c n j = .ok c') : Given c'.type ∧ Given c'.func := by
  unfold converterKey at h
  split at h
  · cases ho : jsonObject c.type j with
    | ok o => rw [ho] at h; cases h; exact ⟨jsonObject_given hc.1 ho, hc.2⟩
    | err e => rw [ho] at h; cases h
    | panic => rw [ho] at h; cases h
  · split at h
    · cases ho : jsonObject c.func j with
      | ok o => rw [ho] at h; cases h; exact ⟨hc.1, jsonObject_given hc.2 ho⟩
      | err e => rw [ho] at h; cases h
      | panic => rw [ho] at h; cases h
    · cases h; exact hc

theorem converterKeys_given : ∀ (l : List (Bytes × Json)) {c c' : Converter}, Given c.type ∧ Given c.func →
    converterKeys c l = .ok c' → Given c'.type ∧ Given c'.func
  | [], _, _, hc, h => by cases h; exact hc
  | (n, j) :: l, c, c', hc, h => by
    rw [converterKeys] at h
    cases hk : converterKey c n j with
    | ok x => rw [hk] at h; exact converterKeys_given l (converterKey_given hc hk) h
    | err e => rw [hk] at h; cases h
    | panic => rw [hk] at h; cases h

theorem converters_given : ∀ (l : List Json) {cs : List Converter}, converters l = .ok cs →
    ∀ c ∈ cs, Given c.type ∧ Given c.func
  | [], _, h => by cases h; simp
  | j :: js, cs, h => by
    rw [converters] at h
    cases hj : converter j with
    | err e => rw [hj] at h; cases h
    | panic => rw [hj] at h; cases h
    | ok x =>
      rw [hj] at h
      cases hs : converters js with
      | err e => rw [hs] at h; cases h
      | panic => rw [hs] at h; cases h
      | ok xs =>
        rw [hs] at h
        cases h
        intro c hc
        rcases List.mem_cons.1 hc with rfl | hc
        · unfold converter at hj
          split at hj
          · cases hj; exact ⟨Or.inl rfl, Or.inl rfl⟩
          · exact converterKeys_given _ ⟨Or.inl rfl, Or.inl rfl⟩ hj
          · cases hj
        · exact converters_given js hs c hc

/-- **C98** The entries of a configuration that is loaded name a type and a function by a path and a name, or
not at all. -/
theorem C98_given {fs : List (Bytes × Bytes)} {file : Option Json} {c : Config.Config}
    (h : load fs file = .ok c) : ∀ x ∈ c.converters, Given x.type ∧ Given x.func := by
  rcases C50_converters h with ⟨_, h⟩ | ⟨l, _, h⟩ | ⟨_, h⟩
  · simp [h]
  · exact converters_given l h
  · simp [h]

theorem Given.dotless {o : ObjectIdent} (h : Given o) : '.' ∉ o.name := by
  rcases h with rfl | ⟨_, h⟩
  · simp
  · exact h.not_mem '.' (by decide)

theorem load_dotless {fs : List (Bytes × Bytes)} {file : Option Json} {c : Config.Config}
    (h : load fs file = .ok c) : Dotless c.converters :=
  fun x hx => (C98_given h x hx).1.dotless

/-- **C98** The converter of a type is the one of the last entry for it. -/
theorem C98_last {fs : List (Bytes × Bytes)} {file : Option Json} {c : Config.Config}
    (h : load fs file = .ok c) (t : TypeInfo) (ht : '.' ∉ t.hdr.name) (F : GoIdent) :
    valueConverter (filterConf c) t = some F ↔ Configured c.converters t.hdr.pkgPath t.hdr.name F := by
  have key := analyze_lookup t.hdr.pkgPath t.hdr.name ht c.converters [] (load_dotless h)
  rw [valueConverter, filterConf]
  rcases key with ⟨h1, h2⟩ | ⟨G, hG, h2⟩
  · simp only [h2, List.lookup, reduceCtorEq, false_iff]
    exact h1 F
  · simp only [h2, Option.some.injEq]
    constructor
    · rintro rfl; exact hG
    · intro hF
      -- there is one last entry
      have uniq : ∀ (l : List Converter) {F G : GoIdent}, Configured l t.hdr.pkgPath t.hdr.name F →
          Configured l t.hdr.pkgPath t.hdr.name G → F = G := by
        intro l F G ⟨a, x, b, he, x1, x2, x3, x4⟩ ⟨a', y, b', he', y1, y2, y3, y4⟩
        rw [he] at he'
        rcases List.append_eq_append_iff.1 he' with ⟨m, e1, e2⟩ | ⟨m, e1, e2⟩
        · cases m with
          | nil => simp at e2; rw [x3, y3, e2.1]
          | cons z m =>
            simp only [List.cons_append, List.cons.injEq] at e2
            exact absurd ⟨y1, y2⟩ (x4 y (by rw [e2.2]; simp))
        · cases m with
          | nil => simp at e2; rw [x3, y3, e2.1]
          | cons z m =>
            simp only [List.cons_append, List.cons.injEq] at e2
            exact absurd ⟨x1, x2⟩ (y4 x (by rw [e2.2]; simp))
      exact uniq _ hG hF

/-- **C98** The global map keeps what an earlier call put into it for other types. -/
theorem C98_again (m : ConverterMap) (cs : List Converter) (hd : Dotless cs) (p n : Bytes) (hn : '.' ∉ n)
    (h : ∀ F, ¬Configured cs p n F) :
    (analyzeConverters m cs).lookup (p ++ b!"." ++ n) = m.lookup (p ++ b!"." ++ n) := by
  rcases analyze_lookup p n hn cs m hd with h' | ⟨F, hF, _⟩
  · exact h'.2
  · exact absurd hF (h F)

/-- **C98** At run time: the values for a key of a filter of the second version are converted by the function
of the last entry for the type of the key's field, and are left as they are if there is none; in the first
version they are left as they are. -/
theorem C98_values {α : Type} {fl : List (Bytes × Bytes)} {file : Option Json} {c : Config.Config}
    (h : load fl file = .ok c) (fn : GoIdent → Filter.Val α → Except Bytes (Filter.Val α))
    (fs : FilterStruct) (t : TargetInfo) (k : Bytes) (cl : Filter.Column α)
    (hk : Filter.columnFor (runMap fn (columnMap (filterConf c) fs t)) k = some cl) :
    ∃ f ∈ t.filters, f.field.filterColumnKey = k ∧
      (fs.constructor.2 = false → cl.convert = none) ∧
      (fs.constructor.2 = true → '.' ∉ f.field.type.hdr.name →
        (∀ F, Configured c.converters f.field.type.hdr.pkgPath f.field.type.hdr.name F → cl.convert = some (fn F)) ∧
        ((∀ F, ¬Configured c.converters f.field.type.hdr.pkgPath f.field.type.hdr.name F) → cl.convert = none)) := by
  have hm : (k, cl) ∈ runMap fn (columnMap (filterConf c) fs t) := by
    unfold Filter.columnFor at hk
    cases hf : (runMap fn (columnMap (filterConf c) fs t)).find? (fun x => x.1 = k) with
    | none => rw [hf] at hk; simp at hk
    | some x =>
      rw [hf] at hk
      simp only [Option.map_some, Option.some.injEq] at hk
      have hx : x.1 = k := by simpa using List.find?_some hf
      rw [← hk, ← hx]
      exact List.mem_of_find?_eq_some hf
  obtain ⟨e, he, hek⟩ := List.mem_map.1 hm
  rw [Prod.mk.injEq] at hek
  obtain ⟨f, hf, rfl, _⟩ := mapEntries_mem _ _ _ _ e he
  refine ⟨f, hf, hek.1, ?_, ?_⟩
  · intro hv; rw [← hek.2]; simp [entryOf, hv]
  · intro hv hn
    rw [← hek.2]
    simp only [entryOf, hv, if_true]
    refine ⟨?_, ?_⟩
    · intro F hF
      rw [(C98_last h f.field.type hn F).2 hF]
      rfl
    · intro hF
      cases hc : valueConverter (filterConf c) f.field.type with
      | none => rfl
      | some F => exact absurd ((C98_last h f.field.type hn F).1 hc) (hF F)

/-- **C98** A type without a name (a pointer, a slice, a predeclared type) has no converter if every entry
names a type; nor has a type of a package whose path has one character or a hyphen. -/
theorem C98_none {fs : List (Bytes × Bytes)} {file : Option Json} {c : Config.Config}
    (h : load fs file = .ok c) (hg : ∀ x ∈ c.converters, x.type ≠ {}) (t : TypeInfo) (ht : '.' ∉ t.hdr.name)
    (hp : t.hdr.pkgPath.length < 2 ∨ '-' ∈ t.hdr.pkgPath) : valueConverter (filterConf c) t = none := by
  cases hc : valueConverter (filterConf c) t with
  | none => rfl
  | some F =>
    obtain ⟨a, x, b, he, hx1, hx2, _⟩ := (C98_last h t ht F).1 hc
    have hx : x ∈ c.converters := by rw [he]; simp
    rcases (C98_given h x hx).1 with h0 | ⟨⟨u, m, z, hu, hau, hz, hm⟩, _⟩
    · exact absurd h0 (hg x hx)
    · rw [hx1] at hu
      rcases hp with hp | hp
      · rw [hu] at hp; simp at hp; omega
      · rw [hu] at hp
        have hw : ¬ Rx.wordChar '-' = true := by decide
        rcases List.mem_cons.1 hp with rfl | hp
        · exact absurd hau hw
        · rcases List.mem_append.1 hp with hp | hp
          · rcases hm _ hp with h | h | h
            · exact absurd h hw
            · exact absurd h (by decide)
            · exact absurd h (by decide)
          · rw [List.mem_singleton.1 hp] at hw; exact absurd hz hw

/-- **C98** Validate (config.go:229-304) neither looks at the converters nor changes them. -/
theorem C98_unchecked (ld : Load) (c : Config.Config) (l : List Converter) :
    validate ld { c with converters := l } = (validate ld c).map fun c' => { c' with converters := l } := by
  unfold validate
  simp only
  split
  · rfl
  · cases validFormat (c.str .outputFileNameFormat).value with
    | ok f =>
      simp only [Res.bind]
      split
      · rfl
      · split
        · rfl
        · cases validArgType ld c.argType <;> rfl
    | err e => rfl
    | panic => rfl

/-! ### Cases -/

/-- A file with the given entries. -/
def convFile (es : List (List (Bytes × Json))) : Option Json :=
  some (.obj [(b!"filter_value_converters", .arr (es.map Json.obj))])

/-- Entries for a type, for the same type again, and for another. -/
def convEntries : List (List (Bytes × Json)) :=
  [[(b!"type", .str b!"a/x.Name"), (b!"func", .str b!"a/conv.Old")],
   [(b!"Type", .str b!"a/x.Name"), (b!"func", .str b!"a/conv.New")],
   [(b!"type", .str b!"a/x.Other"), (b!"func", .str b!"a/conv.Fix")]]

/-- The type `Name` of the package `a/x`, with the methods Value and Scan. -/
def nameTy : Ty :=
  .named { name := b!"Name", pkg := some { path := b!"a/x", name := b!"x" }, isScanner := true, isValuer := true }
    strTy

/-- The converters of the columns of a filter. -/
def convOf (file : Option Json) (s : FilterStruct) (t : TargetInfo) : List (Bytes × Option GoIdent) :=
  match load [] file with
  | .ok c => (columnMap (filterConf c) s t).map fun e => (e.key, e.conv)
  | _ => []

/-- **C98** The entries of `convEntries` are loaded, and the second is the one for the type. -/
theorem C98_loaded : ∃ c, load [] (convFile convEntries) = .ok c ∧
    Configured c.converters b!"a/x" b!"Name" ⟨b!"a/conv", b!"New"⟩ := by
  have h : (match load [] (convFile convEntries) with
    | .ok c => decide (c.converters =
      [{ type := ⟨b!"a/x", b!"Name", true⟩, func := ⟨b!"a/conv", b!"Old", true⟩ },
       { type := ⟨b!"a/x", b!"Name", true⟩, func := ⟨b!"a/conv", b!"New", true⟩ },
       { type := ⟨b!"a/x", b!"Other", true⟩, func := ⟨b!"a/conv", b!"Fix", true⟩ }])
    | _ => false) = true := by decide +kernel
  cases hl : load [] (convFile convEntries) with
  | ok c =>
    rw [hl] at h
    simp only [decide_eq_true_eq] at h
    exact ⟨c, rfl, [_], _, [_], h, rfl, rfl, rfl, by simp⟩
  | err e => rw [hl] at h; cases h
  | panic => rw [hl] at h; cases h

/-- **C98** The last entry for the type is used, and none for a predeclared type. A pointer to the type, the
usual type for a column that may be NULL, has no converter: it has no name. -/
theorem C98_not_pointer : ∃ s t, FilterBuilt docCat s t ∧
    convOf (convFile convEntries) s t =
      [(b!"Id", none), (b!"Name", some ⟨b!"a/conv", b!"New"⟩), (b!"Ptr", none)] := by
  have := filter_of (env := env0) (cat := docCat) (n := b!"FilterUsers")
    (fs := filterStruct [(b!"filter", [b!"v2"])] [sqlFld b!"Id" [b!"id"] Analysis.intTy,
      sqlFld b!"Name" [b!"name"] (pkgTy b!"a/x" b!"x" b!"Name" strTy),
      sqlFld b!"Ptr" [b!"name"] (.ptr nameTy)])
    (P := fun s t => decide (convOf (convFile convEntries) s t =
      [(b!"Id", none), (b!"Name", some ⟨b!"a/conv", b!"New"⟩), (b!"Ptr", none)]))
    (by decide +kernel)
  obtain ⟨s, t, h, hp⟩ := this
  exact ⟨s, t, h, by simpa using hp⟩

/-- **C98** The other setting that filters depend on: the names of the columns are quoted if the configuration
says so, and written as they are if it does not; so is that of the text search column. -/
theorem C98_quoting (c : Config.Config) (fs : FilterStruct) (t : TargetInfo) :
    (∀ e ∈ columnMap (filterConf c) fs t, ∃ f ∈ t.filters, e.key = f.field.filterColumnKey ∧
      ((c.bool .quoteIdentifiers).value = true → e.column =
        (if f.colIdent.qualifier = [] then [] else f.colIdent.qualifier ++ b!".") ++ b!"\"" ++ f.colIdent.name ++ b!"\"") ∧
      ((c.bool .quoteIdentifiers).value = false → e.column =
        (if f.colIdent.qualifier = [] then [] else f.colIdent.qualifier ++ b!".") ++ f.colIdent.name)) ∧
    ∀ id, fs.textSearch = some id →
      ((c.bool .quoteIdentifiers).value = true → textSearchColumn (filterConf c) fs =
        (if id.qualifier = [] then [] else id.qualifier ++ b!".") ++ b!"\"" ++ id.name ++ b!"\"") ∧
      ((c.bool .quoteIdentifiers).value = false → textSearchColumn (filterConf c) fs =
        (if id.qualifier = [] then [] else id.qualifier ++ b!".") ++ id.name) := by
  have key : ∀ id : ColIdent,
      fmtColIdent true id = (if id.qualifier = [] then [] else id.qualifier ++ b!".") ++ b!"\"" ++ id.name ++ b!"\"" ∧
      fmtColIdent false id = (if id.qualifier = [] then [] else id.qualifier ++ b!".") ++ id.name := by
    intro id
    unfold fmtColIdent
    cases id.qualifier <;> simp
  refine ⟨?_, ?_⟩
  · intro e he
    obtain ⟨f, hf, rfl, _⟩ := mapEntries_mem _ _ _ _ e he
    refine ⟨f, hf, rfl, ?_, ?_⟩
    · intro hq; rw [← (key f.colIdent).1, ← hq]; rfl
    · intro hq; rw [← (key f.colIdent).2, ← hq]; rfl
  · intro id hid
    refine ⟨?_, ?_⟩
    · intro hq; rw [← (key id).1, ← hq, textSearchColumn, hid]; rfl
    · intro hq; rw [← (key id).2, ← hq, textSearchColumn, hid]; rfl

/-- The columns of a filter under a configuration. -/
def columnsOf (file : Option Json) (s : FilterStruct) (t : TargetInfo) : List Bytes :=
  match load [] file with
  | .ok c => (columnMap (filterConf c) s t).map (·.column)
  | _ => []

/-- **C98** With and without the setting, which is `false` if the file does not say otherwise. -/
theorem C98_quoting_example : ∃ s t, FilterBuilt docCat s t ∧
    columnsOf none s t = [b!"u.name"] ∧
    columnsOf (some (.obj [(b!"quote_identifiers", .bool true)])) s t = [b!"u.\"name\""] := by
  have := filter_of (env := env0) (cat := docCat) (n := b!"FilterUsers")
    (fs := filterStruct [] [sqlFld b!"Name" [b!"name"] (pkgTy b!"a/x" b!"x" b!"Name" strTy)])
    (P := fun s t => decide (columnsOf none s t = [b!"u.name"]) &&
      decide (columnsOf (some (.obj [(b!"quote_identifiers", .bool true)])) s t = [b!"u.\"name\""])) (by decide +kernel)
  obtain ⟨s, t, h, hp⟩ := this
  exact ⟨s, t, h, by simpa using hp⟩

/-- **C98** The first version of filters converts nothing. -/
theorem C98_first_version : ∃ s t, FilterBuilt docCat s t ∧
    convOf (convFile convEntries) s t = [(b!"Name", none)] := by
  have := filter_of (env := env0) (cat := docCat) (n := b!"FilterUsers")
    (fs := filterStruct [] [sqlFld b!"Name" [b!"name"] (pkgTy b!"a/x" b!"x" b!"Name" strTy)])
    (P := fun s t => decide (convOf (convFile convEntries) s t = [(b!"Name", none)])) (by decide +kernel)
  obtain ⟨s, t, h, hp⟩ := this
  exact ⟨s, t, h, by simpa using hp⟩

/-- **C98** An entry without a type is accepted, and is taken for all types without a name: integers, pointers
and slices alike. -/
theorem C98_not_untyped : ∃ s t, FilterBuilt docCat s t ∧
    convOf (convFile [[(b!"func", .str b!"a/conv.Fix")]]) s t =
      [(b!"Id", some ⟨b!"a/conv", b!"Fix"⟩), (b!"Name", none), (b!"Ptr", some ⟨b!"a/conv", b!"Fix"⟩)] := by
  have := filter_of (env := env0) (cat := docCat) (n := b!"FilterUsers")
    (fs := filterStruct [(b!"filter", [b!"v2"])] [sqlFld b!"Id" [b!"id"] Analysis.intTy,
      sqlFld b!"Name" [b!"name"] (pkgTy b!"a/x" b!"x" b!"Name" strTy),
      sqlFld b!"Ptr" [b!"name"] (.ptr nameTy)])
    (P := fun s t => decide (convOf (convFile [[(b!"func", .str b!"a/conv.Fix")]]) s t =
      [(b!"Id", some ⟨b!"a/conv", b!"Fix"⟩), (b!"Name", none), (b!"Ptr", some ⟨b!"a/conv", b!"Fix"⟩)]))
    (by decide +kernel)
  obtain ⟨s, t, h, hp⟩ := this
  exact ⟨s, t, h, by simpa using hp⟩

/-- **C98** An entry without a function is accepted: the code asks for a function without a name, of a package
with an empty path. -/
theorem C98_not_func : ∃ s t, FilterBuilt docCat s t ∧
    convOf (convFile [[(b!"type", .str b!"a/x.Name")]]) s t = [(b!"Name", some ⟨[], []⟩)] := by
  have := filter_of (env := env0) (cat := docCat) (n := b!"FilterUsers")
    (fs := filterStruct [(b!"filter", [b!"v2"])]
      [sqlFld b!"Name" [b!"name"] (pkgTy b!"a/x" b!"x" b!"Name" strTy)])
    (P := fun s t => decide (convOf (convFile [[(b!"type", .str b!"a/x.Name")]]) s t =
      [(b!"Name", some ⟨[], []⟩)])) (by decide +kernel)
  obtain ⟨s, t, h, hp⟩ := this
  exact ⟨s, t, h, by simpa using hp⟩

end Verif.Generator
