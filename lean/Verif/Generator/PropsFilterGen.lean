import Verif.Generator.FilterGen
import Verif.Generator.Witness
import Verif.Filter.Props

/- C44: the column map of a filter type. -/
namespace Verif.Generator
open Verif.Analysis Verif.Postgres

theorem mapEntries_keys (conf : FilterConf) (v2 : Bool) : ∀ (fs : List FieldFilter) (done : List Bytes),
    ((mapEntries conf v2 done fs).map (·.key)).Nodup ∧
    ∀ e ∈ mapEntries conf v2 done fs, e.key ∉ done
  | [], _ => by simp [mapEntries]
  | f :: fs, done => by
    rw [mapEntries]
    split
    · exact mapEntries_keys conf v2 fs done
    · split
      · exact mapEntries_keys conf v2 fs done
      · rename_i _ hd
        obtain ⟨h1, h2⟩ := mapEntries_keys conf v2 fs (f.field.filterColumnKey :: done)
        refine ⟨?_, ?_⟩
        · rw [List.map_cons, List.nodup_cons]
          refine ⟨?_, h1⟩
          intro hm
          obtain ⟨e, he, hk⟩ := List.mem_map.1 hm
          exact h2 e he (by rw [hk]; exact List.mem_cons_self ..)
        · intro e he
          rcases List.mem_cons.1 he with rfl | he
          · exact fun h => hd (by simpa [entryOf] using h)
          · exact fun h => h2 e he (List.mem_cons_of_mem _ h)

theorem mapEntries_find (conf : FilterConf) (v2 : Bool) (k : Bytes) :
    ∀ (fs : List FieldFilter) (done : List Bytes), k ∉ done →
    (mapEntries conf v2 done fs).find? (fun e => e.key = k) =
      if k.length = 0 then none
      else (fs.find? fun f => f.field.filterColumnKey = k).map (entryOf conf v2)
  | [], _, _ => by simp [mapEntries]
  | f :: fs, done, hk => by
    rw [mapEntries]
    by_cases h0 : f.field.filterColumnKey.length = 0
    · rw [if_pos h0, mapEntries_find conf v2 k fs done hk]
      by_cases hk0 : k.length = 0
      · rw [if_pos hk0, if_pos hk0]
      · rw [if_neg hk0, if_neg hk0, List.find?_cons]
        have : f.field.filterColumnKey ≠ k := fun h => hk0 (h ▸ h0)
        simp [this]
    · rw [if_neg h0]
      by_cases hc : done.contains f.field.filterColumnKey = true
      · rw [if_pos hc, mapEntries_find conf v2 k fs done hk]
        have : f.field.filterColumnKey ≠ k := fun h => hk (h ▸ by simpa using hc)
        simp [this]
      · rw [if_neg hc]
        by_cases he : f.field.filterColumnKey = k
        · have hk0 : ¬k.length = 0 := fun h => h0 (he ▸ h)
          rw [List.find?_cons, List.find?_cons]
          simp only [entryOf, he, decide_true, if_neg hk0, Option.map_some]
        · rw [List.find?_cons, List.find?_cons]
          have h1 : (entryOf conf v2 f).key ≠ k := he
          simp only [h1, he, decide_false]
          exact mapEntries_find conf v2 k fs _ (by
            rw [List.mem_cons]; rintro (h | h)
            · exact he h.symm
            · exact hk h)

/-- **C44** The keys of the column map are distinct. -/
theorem C44_unique (conf : FilterConf) (fs : FilterStruct) (t : TargetInfo) :
    ((columnMap conf fs t).map (·.key)).Nodup := (mapEntries_keys conf _ t.filters []).1

/-- **C44** A key denotes the first field that has it; the empty key denotes no field. -/
theorem C44_first (conf : FilterConf) (fs : FilterStruct) (t : TargetInfo) (k : Bytes) :
    (columnMap conf fs t).find? (fun e => e.key = k) =
      if k.length = 0 then none
      else (t.filters.find? fun f => f.field.filterColumnKey = k).map (entryOf conf fs.constructor.2) :=
  mapEntries_find conf _ k t.filters [] (by simp)

theorem mapEntries_mem (conf : FilterConf) (v2 : Bool) : ∀ (fs : List FieldFilter) (done : List Bytes),
    ∀ e ∈ mapEntries conf v2 done fs, ∃ f ∈ fs, e = entryOf conf v2 f ∧ e.key ≠ []
  | [], _ => by simp [mapEntries]
  | f :: fs, done => by
    have key : ∀ d, ∀ e ∈ mapEntries conf v2 d fs, ∃ x ∈ f :: fs, e = entryOf conf v2 x ∧ e.key ≠ [] := by
      intro d e he
      obtain ⟨x, hx, h⟩ := mapEntries_mem conf v2 fs d e he
      exact ⟨x, List.mem_cons_of_mem _ hx, h⟩
    rw [mapEntries]
    split
    · exact key done
    · split
      · exact key done
      · rename_i h0 _
        intro e he
        rcases List.mem_cons.1 he with rfl | he
        · exact ⟨f, List.mem_cons_self .., rfl, fun h => h0 (by
            have : f.field.filterColumnKey = [] := h
            rw [this]; rfl)⟩
        · exact key _ e he

/-! ### Accepted filter types -/

/-- A filter type that was analyzed and checked. -/
structure FilterBuilt (cat : Catalog) (fs : FilterStruct) (t : TargetInfo) : Prop where
  analyzed : ∃ env cache n flds c, analyzeFilter env cache n flds = .ok (fs, c)
  checked : checkFilter cat fs = .ok t

/-- May values of the field be compared in a filter? -/
def Filterable (rel : Relation) (f : FieldInfo) : Bool :=
  !f.excludeFromFilter && (findRelColumn rel f.colIdent.name).isSome

theorem checkFieldFilter_ok {c : Checker} {f : FieldInfo} {l : List FieldFilter}
    (h : checkFieldFilter c f = .ok l) :
    l.map (·.field) = (if Filterable c.rel f then [f] else []) ∧
    ∀ x ∈ l, findRelColumn c.rel x.field.colIdent.name = some x.column ∧
      x.colIdent = { qualifier := c.rid.alias, name := x.field.colIdent.name } := by
  unfold checkFieldFilter at h
  unfold Filterable
  by_cases hx : f.excludeFromFilter = true
  · rw [if_pos hx] at h
    have := Res.ok.inj h
    subst this
    simp [hx]
  · rw [if_neg hx] at h
    cases hc : findRelColumn c.rel f.colIdent.name with
    | none =>
      rw [hc] at h
      have := Res.ok.inj h
      subst this
      simp
    | some col =>
      rw [hc] at h
      simp only [Res.map_eq_ok] at h
      obtain ⟨v, _, rfl⟩ := h
      simp [hx, hc]

theorem checkFieldFilters_ok {c : Checker} : ∀ {fs : List FieldInfo} {ls : List (List FieldFilter)},
    mapP (checkFieldFilter c) fs = .ok ls →
    ls.flatten.map (·.field) = fs.filter (Filterable c.rel) ∧
    ∀ x ∈ ls.flatten, findRelColumn c.rel x.field.colIdent.name = some x.column ∧
      x.colIdent = { qualifier := c.rid.alias, name := x.field.colIdent.name }
  | [], ls, h => by
    have := Res.ok.inj h
    subst this
    simp
  | f :: fs, ls, h => by
    simp only [mapP, Res.bind_eq_ok, Res.map_eq_ok] at h
    obtain ⟨l, h1, ls', h2, rfl⟩ := h
    obtain ⟨a1, a2⟩ := checkFieldFilter_ok h1
    obtain ⟨b1, b2⟩ := checkFieldFilters_ok h2
    constructor
    · rw [List.flatten_cons, List.map_append, a1, b1, List.filter_cons]
      split <;> rfl
    · intro x hx
      rw [List.flatten_cons, List.mem_append] at hx
      exact hx.elim (a2 x) (b2 x)

/-- **C44** The fields that the map and the methods are made of: those that are not excluded from filters and
name a column of the relation, in the order of the record; each with that column, qualified with the alias
of the relation. -/
theorem C44_fields {cat : Catalog} {fs : FilterStruct} {t : TargetInfo} (h : FilterBuilt cat fs t) :
    ∃ rel, loadRelation cat fs.rel.id = .ok rel ∧
      t.filters.map (·.field) = fs.rel.type.fields.filter (Filterable rel) ∧
      ∀ x ∈ t.filters, findRelColumn rel x.field.colIdent.name = some x.column ∧
        x.colIdent = { qualifier := fs.rel.id.alias, name := x.field.colIdent.name } := by
  have hc := h.checked
  simp only [checkFilter, loadTarget, Res.bind_eq_ok, Res.map_eq_ok] at hc
  obtain ⟨c, ⟨rel, hr, rfl⟩, ls, hl, _, _, rfl⟩ := hc
  obtain ⟨h1, h2⟩ := checkFieldFilters_ok hl
  exact ⟨rel, hr, h1, h2⟩

/-- The columns that filters of the type may use, as text. -/
def Allowed (cat : Catalog) (conf : FilterConf) (fs : FilterStruct) (text : Bytes) : Prop :=
  ∃ rel, loadRelation cat fs.rel.id = .ok rel ∧ ∃ f ∈ fs.rel.type.fields, f.excludeFromFilter = false ∧
    (∃ col ∈ rel.columns, col.name = f.colIdent.name) ∧
    text = fmtColIdent conf.quote { qualifier := fs.rel.id.alias, name := f.colIdent.name }

theorem allowed_of_mem {cat : Catalog} {fs : FilterStruct} {t : TargetInfo} (h : FilterBuilt cat fs t)
    (conf : FilterConf) {x : FieldFilter} (hx : x ∈ t.filters) :
    Allowed cat conf fs (fmtColIdent conf.quote x.colIdent) := by
  obtain ⟨rel, hr, h1, h2⟩ := C44_fields h
  have hm : x.field ∈ fs.rel.type.fields.filter (Filterable rel) := by
    rw [← h1]; exact List.mem_map_of_mem (f := (·.field)) hx
  rw [List.mem_filter] at hm
  obtain ⟨hm, hf⟩ := hm
  simp only [Filterable, Bool.and_eq_true, Bool.not_eq_true'] at hf
  obtain ⟨hc, hi⟩ := h2 x hx
  refine ⟨rel, hr, x.field, hm, hf.1, ⟨x.column, ?_, ?_⟩, by rw [hi]⟩
  · exact List.mem_of_find?_eq_some hc
  · simpa using List.find?_some hc

/-- **C44** Every entry of the map has a key and denotes an allowed column. -/
theorem C44_entries {cat : Catalog} {fs : FilterStruct} {t : TargetInfo} (h : FilterBuilt cat fs t)
    (conf : FilterConf) :
    ∀ e ∈ columnMap conf fs t, e.key ≠ [] ∧ Allowed cat conf fs e.column := by
  intro e he
  obtain ⟨f, hf, rfl, hk⟩ := mapEntries_mem conf _ _ _ e he
  exact ⟨hk, allowed_of_mem h conf hf⟩

/-- **C44** In the first version of filters a key denotes the column's name only; in the second also the
converter configured for the field's type, and whether the column may be NULL. -/
theorem C44_versions (conf : FilterConf) (fs : FilterStruct) (t : TargetInfo) :
    ∀ e ∈ columnMap conf fs t, ∃ f ∈ t.filters, e.key = f.field.filterColumnKey ∧
      e.column = fmtColIdent conf.quote f.colIdent ∧
      (fs.constructor.2 = false → e.conv = none ∧ e.nullable = false) ∧
      (fs.constructor.2 = true →
        e.conv = conf.converters.lookup (f.field.type.hdr.pkgPath ++ b!"." ++ f.field.type.hdr.name) ∧
        e.nullable = f.treatAsNullable) := by
  intro e he
  obtain ⟨f, hf, rfl, _⟩ := mapEntries_mem conf _ _ _ e he
  refine ⟨f, hf, rfl, rfl, ?_, ?_⟩ <;> intro h <;> simp [entryOf, h, valueConverter]

/-- **C44** Whatever filter expression is given to a filter of the type, the comparisons it adds to the
condition are on allowed columns. -/
theorem C44_fql {α : Type} {cat : Catalog} {fs : FilterStruct} {t : TargetInfo} (h : FilterBuilt cat fs t)
    (conf : FilterConf) (fn : GoIdent → Filter.Val α → Except Bytes (Filter.Val α))
    (calls : List (Filter.Call α)) (ts : List (Filter.Tok α)) (fin : Option Filter.Err) :
    let cm := runMap fn (columnMap conf fs t)
    let tscol := textSearchColumn conf fs
    ∃ (segs : List (Filter.Seg α)) (new : List (Filter.Pred α)),
      Filter.preds segs = Filter.requested cm tscol calls false ++ new ∧
      (∀ p ∈ new, Allowed cat conf fs p.column) ∧
      ∀ pos w ps, Filter.countSQL cm tscol (calls ++ [.unmarshalFQL ts fin]) pos = some (w, ps) →
        w = Filter.render (Filter.wherePieces segs) pos ∧ ps = Filter.holes (Filter.wherePieces segs) := by
  intro cm tscol
  obtain ⟨segs, new, h1, h2, h3⟩ := Filter.C09_fql_vetted_columns cm tscol calls ts fin
  refine ⟨segs, new, h1, ?_, h3⟩
  intro p hp
  obtain ⟨k, cl, hk, hc⟩ := h2 p hp
  obtain ⟨e, he, hek⟩ := List.mem_map.1 hk
  rw [Prod.mk.injEq] at hek
  rw [hc, ← hek.2]
  exact (C44_entries h conf e he).2

/-- **C44** Whatever sort string is given, the order is by allowed columns. -/
theorem C44_sort {α : Type} {cat : Catalog} {fs : FilterStruct} {t : TargetInfo} (h : FilterBuilt cat fs t)
    (conf : FilterConf) (fn : GoIdent → Filter.Val α → Except Bytes (Filter.Val α)) (strict : Bool)
    (s : Bytes) :
    ∀ i ∈ (Filter.sortItems (runMap fn (columnMap conf fs t)) strict (Filter.split ',' s)).1,
      Allowed cat conf fs i.column := by
  intro i hi
  obtain ⟨k, cl, hk, hc⟩ := Filter.C08_sort_columns _ strict s i hi
  obtain ⟨e, he, hek⟩ := List.mem_map.1 hk
  rw [Prod.mk.injEq] at hek
  rw [hc, ← hek.2]
  exact (C44_entries h conf e he).2

end Verif.Generator
