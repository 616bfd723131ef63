import Verif.Generator.PropsGoQuery2

/- C110: what a generated method refers to in the query struct is there. -/
namespace Verif.Generator.Scoped
open Verif.Analysis Verif.Postgres

theorem checkQuery_items {cat : Catalog} {q : Query} {t : TargetInfo} (h : checkQuery cat q = .ok t) :
    ∃ c, checkWhereItems c ((q.wher.map (·.items)).getD []) = .ok t.wher := by
  simp only [checkQuery, Res.bind_eq_ok] at h
  obtain ⟨c0, hc0, ⟨c1, joins⟩, hj, h⟩ := h
  simp only [checkRest, Res.bind_eq_ok, Res.map_eq_ok] at h
  obtain ⟨_, _, _, _, _, _, r1, h1, r2, h2, rw, h3, wh, h4, cf, _, rfl⟩ := h
  exact ⟨_, h4⟩

theorem Has.ty {F : List Analysis.Field} {n : Bytes} {P : Ty → Prop} (h : Has F n P) :
    ∃ T, HasTy F (.sel (.ident b!"q") n) T ∧ P T := by
  obtain ⟨f, hf, hn, hne, hp⟩ := h
  refine ⟨f.2, ?_, hp⟩
  have := HasTy.field (F := F) (h := f.1) (t := f.2) hf (hn ▸ hne)
  rwa [hn] at this

theorem where_typed {F : List Analysis.Field} {cat : Catalog} {q : Query} {t : TargetInfo} (hr : RefSt F q)
    (hq : checkQuery cat q = .ok t) {w : WhereStruct} (hw : q.wher = some w) (hn : namedItems w.items = true) :
    (∀ x ∈ condsArgs (.sel recv w.fieldName) t.wher, Typed F x) ∧
    ∀ x ∈ condsSlices (.sel recv w.fieldName) t.wher, ∃ T, HasTy F x T ∧ Indexed T := by
  obtain ⟨c, hc⟩ := checkQuery_items hq
  rw [hw] at hc
  obtain ⟨T, hT, fs, hs, hi⟩ := (hr.wher w hw).ty
  exact checkItems_typed c _ fs.toList _ _ (fun h t hm hne => .sel hT hs hm hne) hi hn hc

theorem code_lists {cat : Catalog} {q : Query} {t : TargetInfo} {c : Code} (hq : checkQuery cat q = .ok t)
    (hi : inUsesFields q = true) (h : generate q t = some c) :
    ∀ x ∈ c.g.slices, ∃ w, q.wher = some w ∧ x ∈ condsSlices (.sel recv w.fieldName) t.wher := by
  obtain ⟨js, g1, w, g2, hj, hw, _, hg, _, _⟩ := generate_split h
  have hin := inWithFields_of_accepted hq hi
  simp only [inWithFields, Bool.and_eq_true] at hin
  have hsl : c.g.slices = g2.slices := by
    rw [hg, (offset_no q (buildLimit q g2).2 0).2, (limit_no q g2 0).2]
  have h1 : g1.slices = [] := by
    rw [← (values_no q t).2]
    unfold buildJoins at hj
    split at hj
    · simp only [Option.some.injEq, Prod.mk.injEq] at hj
      rw [hj.2]
    · exact joins_slices _ _ _ _ hin.1 hj
  rw [hsl]
  unfold buildWhere at hw
  split at hw
  · simp only [Option.some.injEq, Prod.mk.injEq] at hw
    rw [← hw.2, (pkeys_grow _ _ _ _).1, h1]
    simp
  · split at hw
    · split at hw
      · cases hw
      · next f hf =>
        simp only [Option.some.injEq, Prod.mk.injEq] at hw
        rw [← hw.2, condList_state _ _ _ _ _ hin.2]
        simp only [G.add, h1, List.nil_append]
        exact fun x hx => ⟨f, hf, hx⟩
    · simp only [Option.some.injEq, Prod.mk.injEq] at hw
      rw [← hw.2, h1]
      simp

/-- **C110** The arguments of a query that come from its where struct are fields of the query struct, each selector
naming a field of the struct before it, or a function of package pgsql of such a field. -/
theorem C110_where {env : Env} {cache : Cache} {n : Bytes} {fs : List Analysis.Field} {s : St}
    (e : analyzeQuery env cache n fs = .ok s) {cat : Catalog} {t : TargetInfo} (hq : checkQuery cat s.q = .ok t)
    (hn : ∀ w, s.q.wher = some w → namedItems w.items = true) : ∀ x ∈ whereArgs s.q t, Typed fs x := by
  intro x hx
  unfold whereArgs at hx
  split at hx
  · cases hx
  · next w hw => exact (where_typed (analyzeQuery_ref e) hq hw (hn w hw)).1 x hx

/-- **C110** The lists that are spread over several parameters are such fields as well, and they have elements. -/
theorem C110_lists {env : Env} {cache : Cache} {n : Bytes} {fs : List Analysis.Field} {s : St}
    (e : analyzeQuery env cache n fs = .ok s) {cat : Catalog} {t : TargetInfo} (hq : checkQuery cat s.q = .ok t)
    (hn : ∀ w, s.q.wher = some w → namedItems w.items = true) (hi : inUsesFields s.q = true) {c : Code}
    (hc : generate s.q t = some c) : ∀ x ∈ c.g.slices, ∃ T, HasTy fs x T ∧ Indexed T := by
  intro x hx
  obtain ⟨w, hw, hx⟩ := code_lists hq hi hc x hx
  exact (where_typed (analyzeQuery_ref e) hq hw (hn w hw)).2 x hx

/-- **C110** The limit and the offset that are arguments are integer fields of the query struct. -/
theorem C110_limit {env : Env} {cache : Cache} {n : Bytes} {fs : List Analysis.Field} {s : St}
    (e : analyzeQuery env cache n fs = .ok s) :
    ∀ x ∈ limitArgs s.q.limit ++ limitArgs s.q.offset, ∃ T, HasTy fs x T ∧ isIntegerType T = true := by
  have hr := analyzeQuery_ref e
  have key : ∀ o : Option LimitField,
      (∀ l, o = some l → l.name = [] ∨ Has fs l.name fun t => isIntegerType t = true) →
      ∀ x ∈ limitArgs o, ∃ T, HasTy fs x T ∧ isIntegerType T = true := by
    intro o ho x hx
    unfold limitArgs at hx
    split at hx
    · cases hx
    · next l =>
      split at hx
      · cases hx
      · next hl =>
        rw [List.mem_singleton] at hx
        rw [hx]
        exact ((ho l rfl).resolve_left fun h => hl (by rw [h]; rfl)).ty
  intro x hx
  rcases List.mem_append.1 hx with hx | hx
  · exact key _ hr.limit x hx
  · exact key _ hr.offset x hx

/-- **C110** So are the filter, the context, the error handler and the number of rows: the method refers to a field of
the query struct of the type that it needs. -/
theorem C110_fields {env : Env} {cache : Cache} {n : Bytes} {fs : List Analysis.Field} {s : St}
    (e : analyzeQuery env cache n fs = .ok s) :
    (∀ m, s.q.filter = some m → ∃ T, HasTy fs (.sel recv m) T ∧ isFilterType T = .ok true) ∧
    (∀ m, s.q.context = some m → ∃ T, HasTy fs (.sel recv m) T ∧ isContext T = true) ∧
    (∀ m, s.q.errorHandler = some (m, false) → ∃ T, HasTy fs (.sel recv m) T ∧ isErrorHandler T = true) ∧
    (∀ m, s.q.errorHandler = some (m, true) → ∃ T, HasTy fs (.sel recv m) T ∧ isErrorInfoHandler T = true) ∧
    ∀ m k, s.q.rowsAffected = some (m, k) →
      ∃ T, HasTy fs (.sel recv m) T ∧ isIntegerType T = true ∧ k = analyzeTypeKind T := by
  have hr := analyzeQuery_ref e
  exact ⟨fun m h => (hr.filter m h).ty, fun m h => (hr.context m h).ty,
    fun m h => by simpa [recv] using (hr.handler _ h).ty, fun m h => by simpa [recv] using (hr.handler _ h).ty,
    fun m k h => (hr.rows _ h).ty⟩

/-- A list, a nested struct with a range, and a limit. -/
def searchFields : List Analysis.Field :=
  [relFld (.slice userTy),
   whereOf [sqlFld b!"Ids" [b!"u.id isin"] (.slice Analysis.intTy),
     sqlFld b!"Name" [b!"u.name", b!"@lower"] Generator.strTy,
     sqlFld b!"Or" [b!">"] (.struct (.ofList [sqlFld b!"Age" [b!"u.age isbetween"]
       (.struct (.ofList [sqlFld b!"A" [b!"x"] Analysis.intTy, sqlFld b!"B" [b!"y"] Analysis.intTy]))]))],
   ({ name := b!"Limit" }, Analysis.intTy)]

/-- **C110** A query with all of them. -/
theorem C110_example : ∃ q t c, pipeline env0 shopCat b!"SelectUsers" searchFields = some (q, t, some c) ∧
    whereArgs q t = [path [b!"Where", b!"Name"], path [b!"Where", b!"Or", b!"Age", b!"A"],
      path [b!"Where", b!"Or", b!"Age", b!"B"]] ∧
    limitArgs q.limit = [path [b!"Limit"]] ∧ c.g.slices = [path [b!"Where", b!"Ids"]] ∧
    (q.wher.all fun w => namedItems w.items) = true ∧ inUsesFields q = true := by
  obtain ⟨q, t, c, h1, h2⟩ := query_of (env := env0) (cat := shopCat) (n := b!"SelectUsers") (fs := searchFields)
    (P := fun q t c => decide (
      whereArgs q t = [path [b!"Where", b!"Name"], path [b!"Where", b!"Or", b!"Age", b!"A"],
        path [b!"Where", b!"Or", b!"Age", b!"B"]] ∧
      limitArgs q.limit = [path [b!"Limit"]] ∧ c.g.slices = [path [b!"Where", b!"Ids"]] ∧
      (q.wher.all fun w => namedItems w.items) = true ∧ inUsesFields q = true)) (by decide +kernel)
  exact ⟨q, t, c, h1, of_decide_eq_true h2⟩

/-- **C110** The judgement tells what is there from what is not. -/
theorem C110_example_typed :
    HasTy searchFields (path [b!"Limit"]) Analysis.intTy ∧ ∀ T, ¬ HasTy searchFields (path [b!"Offset"]) T := by
  constructor
  · exact .field (h := { name := b!"Limit" }) (by simp [searchFields]) (by decide)
  · intro T h
    generalize hx : path [b!"Offset"] = x at h
    cases h with
    | field hm hne =>
      simp only [path, List.foldl, GoExpr.sel.injEq] at hx
      have : ∀ f ∈ searchFields, f.1.name ≠ b!"Offset" := by decide
      exact this _ hm hx.2.symm
    | sel h _ _ _ =>
      simp only [path, List.foldl, GoExpr.sel.injEq] at hx
      rw [← hx.1] at h
      cases h

/-- Conditions may be nested in a blank field: the method refers to `q.Where._.Id`, which Go refuses. -/
theorem C110_not_blank : ∃ q t c,
    pipeline env0 shopCat b!"SelectUsers" [relFld (.slice userTy),
      whereOf [sqlFld b!"_" [b!">"] (.struct (.ofList [sqlFld b!"Id" [b!"u.id"] Analysis.intTy]))]] =
      some (q, t, some c) ∧ whereArgs q t = [path [b!"Where", b!"_", b!"Id"]] := by
  obtain ⟨q, t, c, h1, h2⟩ := query_of (env := env0) (cat := shopCat) (n := b!"SelectUsers")
    (fs := [relFld (.slice userTy),
      whereOf [sqlFld b!"_" [b!">"] (.struct (.ofList [sqlFld b!"Id" [b!"u.id"] Analysis.intTy]))]])
    (P := fun q t _ => decide (whereArgs q t = [path [b!"Where", b!"_", b!"Id"]])) (by decide +kernel)
  exact ⟨q, t, c, h1, of_decide_eq_true h2⟩

/-- Whether the unexported fields of a nested struct can be used is decided by the type of the outermost struct: the
method refers to the field `id` of a struct of another package, which Go refuses. -/
theorem C110_not_exported : ∃ q t c,
    pipeline env0 shopCat b!"SelectUsers" [relFld (.slice userTy), whereOf [sqlFld b!"At" [b!">"] (placeTy b!"m" false)]] =
      some (q, t, some c) ∧ b!"m" ≠ env0.pkgPath ∧ whereArgs q t = [path [b!"Where", b!"At", b!"id"]] := by
  obtain ⟨q, t, c, h1, h2⟩ := query_of (env := env0) (cat := shopCat) (n := b!"SelectUsers")
    (fs := [relFld (.slice userTy), whereOf [sqlFld b!"At" [b!">"] (placeTy b!"m" false)]])
    (P := fun q t _ => decide (b!"m" ≠ env0.pkgPath ∧ whereArgs q t = [path [b!"Where", b!"At", b!"id"]]))
    (by decide +kernel)
  exact ⟨q, t, c, h1, of_decide_eq_true h2⟩

end Verif.Generator.Scoped
