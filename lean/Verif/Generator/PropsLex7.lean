import Verif.Generator.PropsLex6
import Verif.Generator.PropsFilterGen2

/- Property C87: the columns of a generated filter type. -/
namespace Verif.Generator.Lex
open Verif.Analysis Verif.Postgres

/-! ### Names in an accepted filter type -/

def NamedF (s : FSt) : Prop :=
  (∀ r, s.rel = some r → RelNamed r.id ∧ RecNamed r.type) ∧ (∀ c, s.textSearch = some c → ColNamed c) ∧
    CacheNamed s.cache

theorem filterRel_named {env : Env} {s s' : FSt} {h : FieldHdr} {t : Ty} (f : NamedF s)
    (e : filterRel env s h t = .ok s') : NamedF s' := by
  simp only [filterRel, Res.bind_eq_ok, Res.map_eq_ok] at e
  obtain ⟨_, _, rid, hr, rs, _, p, hp, _, _, rfl⟩ := e
  have := analyzeRelType_named f.2.2 hp
  exact ⟨fun r e => by cases e; exact ⟨parseRelIdent_named hr, this.1⟩, f.2.1, this.2⟩

theorem filterField_named {s s' : FSt} {h : FieldHdr} {t : Ty} (f : NamedF s)
    (e : filterField s h t = .ok s') : NamedF s' := by
  unfold filterField at e
  rw [Res.bind_eq_ok] at e
  obtain ⟨d, _, e⟩ := e
  split at e
  · split at e
    · rw [Res.map_eq_ok] at e
      obtain ⟨c, hc, rfl⟩ := e
      exact ⟨f.1, fun c' e => by cases e; exact (parseColIdent_declared hc).1, f.2.2⟩
    · cases e
  · split at e
    · rw [Res.map_eq_ok] at e
      obtain ⟨_, _, rfl⟩ := e
      exact f
    · cases e; exact f

theorem filterFields_named {env : Env} {s s' : FSt} {fs : List Field} (f : NamedF s)
    (e : filterFields env s fs = .ok s') : NamedF s' := by
  induction fs generalizing s with
  | nil => rw [filterFields] at e; cases e; exact f
  | cons fd fs ih =>
    rw [filterFields, Res.bind_eq_ok] at e
    obtain ⟨s1, h1, e⟩ := e
    refine ih ?_ e
    split at h1
    · exact filterRel_named f h1
    · exact filterField_named f h1

theorem analyzeFilter_named {env : Env} {cache : Cache} {n : Bytes} {fs : List Field} {r : FilterStruct} {c : Cache}
    (hc : CacheNamed cache) (e : analyzeFilter env cache n fs = .ok (r, c)) :
    RelNamed r.rel.id ∧ RecNamed r.rel.type ∧ (∀ c, r.textSearch = some c → ColNamed c) := by
  rw [analyzeFilter, Res.bind_eq_ok] at e
  obtain ⟨s, h, e⟩ := e
  have := filterFields_named (s := { cache := cache }) ⟨by simp, by simp, hc⟩ h
  split at e
  · cases e
  · cases e
  · next rl cn h1 h2 =>
    cases e
    exact ⟨(this.1 _ h1).1, (this.1 _ h1).2, this.2.1⟩

/-! ### The columns -/

/-- The tokens of a column in a filter: its name is quoted only if the configuration says so. -/
def filterColToks (quote : Bool) (c : ColIdent) : List Tok :=
  if quote then colToks c else qualToks c.qualifier ++ [.word (lower c.name)]

theorem reads_fmtColIdent {c : ColIdent} (h : ColNamed c) (quote : Bool) :
    Reads (fmtColIdent quote c) (filterColToks quote c) := by
  obtain ⟨hq, hn⟩ := h
  have hq' : c.qualifier = [] ∨ c.qualifier.length > 0 ∧ Ident c.qualifier := by
    rcases hq with h | h
    · exact .inl h
    · exact .inr ⟨List.length_pos_iff.2 h.ne_nil, h⟩
  unfold fmtColIdent filterColToks colToks qualToks
  cases quote <;> rcases hq' with h | ⟨h, h'⟩
  · simpa [h] using reads_ident hn
  · simpa [h] using (closed_qualifier h').append_reads (reads_ident hn)
  · simpa [h] using reads_quoted_ident hn
  · simpa [h] using (closed_qualifier h').append_reads (reads_quoted_ident hn)

/-- **C87** The columns that a generated filter type passes to the filter package - in the map, to the methods,
and for text search - make sense by themselves, so `C87_filtered` applies to its filters. -/
theorem C87_filter_columns {env : Env} {cache : Cache} {n : Bytes} {flds : List Field} {fs : FilterStruct}
    {c' : Cache} {cat : Catalog} {t : TargetInfo} (hc : CacheNamed cache)
    (ha : analyzeFilter env cache n flds = .ok (fs, c')) (hk : checkFilter cat fs = .ok t) (conf : FilterConf) :
    (∀ e ∈ columnMap conf fs t, ∃ f ∈ t.filters, lex e.column = filterColToks conf.quote f.colIdent ∧ Whole e.column) ∧
    (∀ f ∈ t.filters, Whole (fmtColIdent conf.quote f.colIdent)) ∧
    Whole (textSearchColumn conf fs) := by
  obtain ⟨h1, h2, h3⟩ := analyzeFilter_named hc ha
  have hf : ∀ f ∈ t.filters, ColNamed f.colIdent := by
    intro f hf
    obtain ⟨rel, _, hm, hi⟩ := C44_fields ⟨⟨env, cache, n, flds, c', ha⟩, hk⟩
    rw [(hi f hf).2]
    have : f.field ∈ fs.rel.type.fields.filter (Filterable rel) := by
      rw [← hm]; exact List.mem_map_of_mem (f := (·.field)) hf
    exact ⟨h1.2.2, (h2 _ (List.mem_filter.1 this).1).2⟩
  refine ⟨?_, fun f h => (reads_fmtColIdent (hf f h) _).whole, ?_⟩
  · intro e he
    obtain ⟨f, hm, rfl, _⟩ := mapEntries_mem conf _ _ _ e he
    have := reads_fmtColIdent (hf f hm) conf.quote
    exact ⟨f, hm, this.lex, this.whole⟩
  · unfold textSearchColumn
    split
    · next id hid => exact (reads_fmtColIdent (h3 _ hid) _).whole
    · decide

/-- **C87** Without quotes, which is the default, the filter means the column that was checked exactly if its
name has no upper-case letters. -/
theorem C87_filter_column_partial {c : ColIdent} (h : ColNamed c) :
    idents (lex (fmtColIdent false c)) = idents (colToks c) ↔ lower c.name = c.name := by
  rw [(reads_fmtColIdent h false).lex]
  by_cases hl : c.qualifier.length > 0 <;> simp [filterColToks, colToks, qualToks, hl, idents]

theorem C87_filter_column_quoted {c : ColIdent} (h : ColNamed c) : lex (fmtColIdent true c) = colToks c :=
  (reads_fmtColIdent h true).lex

/-- users ("firstName" text) -/
def camelCat : Catalog :=
  { types := [textTy]
    rels := [(b!"users", { columns := [{ num := 1, name := b!"firstName", typeOid := Oid.text }] })] }

/-- **C87** A column with upper-case letters is found by the checker, but the filter names another:
`u.firstName` is `u.firstname`. -/
theorem C87_not_filter_column : ∃ s t, FilterBuilt camelCat s t ∧
    (columnMap {} s t).map (fun e => idents (lex e.column)) = [[b!"u", b!"firstname"]] ∧
    t.filters.map (fun f => f.column.name) = [b!"firstName"] := by
  obtain ⟨s, t, h, hp⟩ := filter_of (env := env0) (cat := camelCat) (n := b!"FilterUsers")
    (fs := filterStruct [] [tagFld b!"FirstName" b!"firstName" b!"n" strTy])
    (P := fun s t => decide ((columnMap {} s t).map (fun e => idents (lex e.column)) = [[b!"u", b!"firstname"]] ∧
      t.filters.map (fun f => f.column.name) = [b!"firstName"])) (by decide +kernel)
  exact ⟨s, t, h, of_decide_eq_true hp⟩

/-- With the option on it is named in quotes. -/
theorem C87_filter_columns_example : ∃ s t, FilterBuilt camelCat s t ∧
    (columnMap { quote := true } s t).map (fun e => lex e.column) =
      [[.word b!"u", .punct '.', .name b!"firstName"]] := by
  obtain ⟨s, t, h, hp⟩ := filter_of (env := env0) (cat := camelCat) (n := b!"FilterUsers")
    (fs := filterStruct [] [tagFld b!"FirstName" b!"firstName" b!"n" strTy])
    (P := fun s t => decide ((columnMap { quote := true } s t).map (fun e => lex e.column) =
      [[.word b!"u", .punct '.', .name b!"firstName"]])) (by decide +kernel)
  exact ⟨s, t, h, of_decide_eq_true hp⟩

end Verif.Generator.Lex
