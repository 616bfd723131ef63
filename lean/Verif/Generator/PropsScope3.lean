import Verif.Generator.PropsScope2

/- Property C105: what the columns of a generated statement refer to. -/
namespace Verif.Generator.Names
open Verif.Analysis Verif.Postgres

/-- No relation of the query is known by a name with upper-case letters. -/
def LowerNames (q : Query) : Prop := ∀ r ∈ q.rel.id :: q.joined, lower (relKey r) = relKey r

theorem exposed_eq {r : RelIdent} (h : lower (relKey r) = relKey r) : exposed r = relKey r := by
  unfold exposed
  unfold relKey at h ⊢
  by_cases ha : r.alias = []
  · simp [ha]
  · rw [if_neg ha] at h
    simp [ha, h, List.length_pos_iff.2 ha]

theorem filter_key {k : RelIdent → Bytes} {r : RelIdent} : ∀ {l : List RelIdent}, (l.map k).Nodup → r ∈ l →
    l.filter (fun x => decide (k x = k r)) = [r]
  | [], _, h => by cases h
  | x :: xs, hn, h => by
    rw [List.map_cons, List.nodup_cons] at hn
    rw [List.filter_cons]
    rcases List.mem_cons.1 h with rfl | h
    · rw [if_pos (by simp)]
      congr 1
      rw [List.filter_eq_nil_iff]
      intro y hy hk
      exact hn.1 (List.mem_map.2 ⟨y, hy, by simpa using hk⟩)
    · rw [if_neg]
      · exact filter_key hn.2 h
      · intro hk
        exact hn.1 (List.mem_map.2 ⟨r, h, by simpa using (Eq.symm (by simpa using hk))⟩)

/-- A column with the key of a relation in scope refers to this relation. -/
theorem refersTo_key {cat : Catalog} {scope : List RelIdent} {c : ColIdent} {r : RelIdent}
    (hn : (scope.map relKey).Nodup) (hl : ∀ x ∈ scope, lower (relKey x) = relKey x) (hr : r ∈ scope)
    (hc : c.name ∈ dbCols cat r) (hq : c.qualifier = relKey r) (hne : c.qualifier ≠ []) :
    refersTo cat ⟨scope, c⟩ = some r := by
  have hcand : candidates cat ⟨scope, c⟩ = [r] := by
    unfold candidates
    rw [if_pos (List.length_pos_iff.2 hne)]
    simp only [hq, hl r hr]
    rw [← filter_key hn hr]
    exact List.filter_congr fun x hx => by rw [exposed_eq (hl x hx)]
  unfold refersTo
  rw [hcand]
  simp [hc]

/-- A column with the key of a relation that is not in scope is refused. -/
theorem refersTo_hidden {cat : Catalog} {scope : List RelIdent} {c : ColIdent} {k : Bytes}
    (hl : ∀ x ∈ scope, lower (relKey x) = relKey x) (hk : lower k = k) (hr : ∀ x ∈ scope, relKey x ≠ k)
    (hq : c.qualifier = k) (hne : c.qualifier ≠ []) : refersTo cat ⟨scope, c⟩ = none := by
  have hcand : candidates cat ⟨scope, c⟩ = [] := by
    unfold candidates
    rw [if_pos (List.length_pos_iff.2 hne), List.filter_eq_nil_iff]
    intro x hx
    simp only [hq, hk, exposed_eq (hl x hx)]
    simpa using hr x hx
  unfold refersTo
  rw [hcand]

theorem refersTo_bare {cat : Catalog} {scope : List RelIdent} {c : ColIdent} (hq : c.qualifier = []) :
    refersTo cat ⟨scope, c⟩ =
      match scope.filter fun r => (dbCols cat r).contains c.name with
      | [r] => some r
      | _ => none := by
  unfold refersTo candidates
  simp only [hq, List.length_nil, Nat.lt_irrefl, gt_iff_lt, if_false]
  generalize hf : scope.filter _ = l
  cases l with
  | nil => rfl
  | cons r l =>
    cases l with
    | cons _ _ => rfl
    | nil =>
      have : r ∈ scope.filter fun r => (dbCols cat r).contains c.name := hf ▸ List.mem_singleton.2 rfl
      simp only
      rw [if_pos (List.mem_filter.1 this).2]

/-- A column of the first relation, without qualifier. -/
theorem refersTo_first {cat : Catalog} {t : RelIdent} {js : List RelIdent} {c : ColIdent} (hq : c.qualifier = [])
    (hc : c.name ∈ dbCols cat t) : refersTo cat ⟨t :: js, c⟩ =
      if js.any fun r => (dbCols cat r).contains c.name then none else some t := by
  rw [refersTo_bare hq, List.filter_cons, if_pos (by simpa using hc)]
  cases hf : js.filter fun r => (dbCols cat r).contains c.name with
  | nil =>
    rw [if_neg]
    rw [List.filter_eq_nil_iff] at hf
    intro ha
    obtain ⟨x, hx, hx'⟩ := List.any_eq_true.1 ha
    exact hf x hx hx'
  | cons r l =>
    rw [if_pos]
    have : r ∈ js.filter fun r => (dbCols cat r).contains c.name := hf ▸ List.mem_cons_self ..
    exact List.any_eq_true.2 ⟨r, List.mem_filter.1 this⟩

theorem refersTo_only {cat : Catalog} {scope : List RelIdent} {c : ColIdent} {r : RelIdent} (hq : c.qualifier = [])
    (hn : scope.Nodup) (hr : r ∈ scope) (hc : c.name ∈ dbCols cat r)
    (ho : ∀ x ∈ scope, c.name ∈ dbCols cat x → x = r) : refersTo cat ⟨scope, c⟩ = some r := by
  have : scope.filter (fun r => (dbCols cat r).contains c.name) = [r] := by
    induction scope with
    | nil => cases hr
    | cons x xs ih =>
      rw [List.nodup_cons] at hn
      rw [List.filter_cons]
      rcases List.mem_cons.1 hr with rfl | hr
      · rw [if_pos (by simpa using hc)]
        congr 1
        rw [List.filter_eq_nil_iff]
        intro y hy hk
        have := ho y (List.mem_cons_of_mem _ hy) (by simpa using hk)
        exact hn.1 (this ▸ hy)
      · rw [if_neg]
        · exact ih hn.2 hr fun y hy => ho y (List.mem_cons_of_mem _ hy)
        · intro hk
          have := ho x (List.mem_cons_self ..) (by simpa using hk)
          exact hn.1 (this ▸ hr)
  rw [refersTo_bare hq, this]

/-! ### The clauses of the statement -/

theorem joinsFrom_rels {js : List (TableJoin Slot)} {ds : List JoinDir} {cs : List (List JoinCond)}
    (h : JoinsFrom js ds cs) : js.map (·.rel) = ds.map (·.relIdent) := by
  induction h with
  | nil => rfl
  | cons h _ _ ih => simp [h, ih]

theorem joinRefs_found {cat : Catalog} {js : List (TableJoin Slot)} {ds : List JoinDir} {cs : List (List JoinCond)}
    (h : JoinsFrom js ds cs) : ∀ {pre : List RelIdent}, JoinsFound cat pre ds cs → ∀ x ∈ joinRefs pre js,
    FoundOn cat x.scope x.col ∧ x.scope.Sublist (pre ++ ds.map (·.relIdent)) := by
  induction h with
  | nil => intro pre _ x hx; simp [joinRefs] at hx
  | cons hr hc _ ih =>
    intro pre hf x hx
    cases hf with
    | cons hf1 hf2 =>
      simp only [joinRefs, List.mem_append, List.mem_map] at hx
      rw [hr] at hx
      rcases hx with ⟨c, hcm, rfl⟩ | hx
      · refine ⟨hf1 c (hc c hcm), ?_⟩
        simp
      · obtain ⟨a, b⟩ := ih hf2 x hx
        exact ⟨a, by simpa using b⟩

/-- In the FROM list of an update and the USING list of a delete. -/
theorem tableRefs_joins {α : Type} : ∀ (js : List (TableJoin α)) (seen : List RelIdent) (ts : List (TableExpr α)),
    (ts = [] ∨ ts = [.values]) → tableRefs seen (js.map .join ++ ts) = joinRefs seen js
  | [], seen, ts, h => by
    rcases h with rfl | rfl <;> simp [tableRefs, joinRefs]
  | j :: js, seen, ts, h => by
    simp only [List.map_cons, List.cons_append, tableRefs, joinRefs]
    rw [tableRefs_joins js _ ts h]

theorem joinRefs_hidden {cat : Catalog} {tgt : RelIdent} {js : List (TableJoin Slot)} {ds : List JoinDir}
    {cs : List (List JoinCond)} (h : JoinsFrom js ds cs) : ∀ {pre : List RelIdent}, JoinsFound cat (tgt :: pre) ds cs →
    ∀ x ∈ joinRefs pre js, FoundOn cat (tgt :: x.scope) x.col ∧ x.scope.Sublist (pre ++ ds.map (·.relIdent)) := by
  induction h with
  | nil => intro pre _ x hx; simp [joinRefs] at hx
  | cons hr hc _ ih =>
    intro pre hf x hx
    cases hf with
    | cons hf1 hf2 =>
      simp only [joinRefs, List.mem_append, List.mem_map] at hx
      rw [hr] at hx
      rcases hx with ⟨c, hcm, rfl⟩ | hx
      · refine ⟨hf1 c (hc c hcm), ?_⟩
        simp
      · obtain ⟨a, b⟩ := ih (by rw [List.cons_append] at hf2; exact hf2) x hx
        exact ⟨a, by simpa using b⟩

/-- The FROM or USING list: the relations that are joined, and the conditions. -/
structure TablesFound (cat : Catalog) (q : Query) (fr : List (TableExpr Slot)) : Prop where
  rels : fr.flatMap TableExpr.rels = q.joined
  refs : ∀ x ∈ tableRefs [] fr, FoundOn cat (q.rel.id :: x.scope) x.col ∧ x.scope.Sublist q.joined

theorem tableExprs_found {cat : Catalog} {q : Query} {t : TargetInfo} (hi : InfoFound cat q t) {g g' : G}
    {js : List (TableJoin Slot)} (hj : buildJoins q t g = some (js, g')) {fr : List (TableExpr Slot)}
    (h : tableExprs q js = some fr) {ts : List (TableExpr Slot)} (hts : ts = [] ∨ ts = [.values]) :
    TablesFound cat q (fr ++ ts) := by
  have hrel : ts.flatMap TableExpr.rels = [] := by rcases hts with rfl | rfl <;> rfl
  unfold tableExprs at h
  unfold buildJoins at hj
  cases hq : q.join with
  | none =>
    rw [hq] at h
    cases h
    refine ⟨by simpa [Query.joined, hq] using hrel, ?_⟩
    intro x hx
    rcases hts with rfl | rfl <;> simp [tableRefs] at hx
  | some j =>
    rw [hq] at h hj
    simp only [Option.map_eq_some_iff] at h
    obtain ⟨r, hr, rfl⟩ := h
    have hfrom := tableJoins_from _ _ _ _ hj
    have hfound := hi.joins j hq
    rw [hr] at hfound
    have hjr : q.joined = r :: j.directives.map (·.relIdent) := by
      simp [Query.joined, hq, JoinStruct.rels, hr]
    constructor
    · rw [List.cons_append, List.flatMap_cons, List.flatMap_append, hrel, hjr]
      have := joinsFrom_rels hfrom
      simp only at this
      rw [← this]
      simp only [TableExpr.rels, List.flatMap_map, List.append_nil, List.singleton_append]
      rw [List.map_eq_flatMap]
    · intro x hx
      rw [List.cons_append, tableRefs, tableRefs_joins _ _ _ hts] at hx
      rw [hjr]
      exact joinRefs_hidden (pre := [r]) hfrom hfound x hx

theorem joins_of_select {q : Query} {rs : RelSpace} (hf : Fits q rs) (hp : ∀ j, q.join = some j → j.Placed)
    (hk : q.kind.isSelect = true) : ∀ j, q.join = some j → j.relation = none := by
  intro j hj
  cases hr : j.relation with
  | none => rfl
  | some r =>
    exfalso
    have h1 := hp j hj (by rw [hr]; simp)
    rcases (hf.join j hj).1 with h | h | h
    · rcases h1 with h1 | h1 <;> rw [h.1] at h1 <;> exact absurd h1 (by decide)
    · rw [h.2] at hk; cases hk
    · rw [h.2] at hk; cases hk

/-- The joins of a select. -/
theorem selectJoins_found {cat : Catalog} {q : Query} {t : TargetInfo} (hi : InfoFound cat q t)
    (hn : ∀ j, q.join = some j → j.relation = none) {g g' : G} {js : List (TableJoin Slot)}
    (hj : buildJoins q t g = some (js, g')) : js.map (·.rel) = q.joined ∧
      ∀ x ∈ joinRefs [q.rel.id] js, FoundOn cat x.scope x.col ∧ x.scope.Sublist (q.rel.id :: q.joined) := by
  unfold buildJoins at hj
  cases hq : q.join with
  | none =>
    rw [hq] at hj
    cases hj
    refine ⟨by simp [Query.joined, hq], ?_⟩
    intro x hx
    simp [joinRefs] at hx
  | some j =>
    rw [hq] at hj
    have hr := hn j hq
    have hfrom := tableJoins_from _ _ _ _ hj
    have hfound := hi.joins j hq
    rw [hr] at hfound
    have hjr : q.joined = j.directives.map (·.relIdent) := by simp [Query.joined, hq, JoinStruct.rels, hr]
    refine ⟨by rw [hjr]; exact joinsFrom_rels hfrom, ?_⟩
    intro x hx
    rw [hjr]
    exact joinRefs_found hfrom hfound x hx

/-- What is known of the columns of a statement. -/
structure StmtFound (cat : Catalog) (q : Query) (s : SQL Slot) : Prop where
  scope : s.stmt.scope = q.rel.id :: q.joined
  plain : ∀ c ∈ s.stmt.plainCols ++ s.tail.cols, Found cat q.rel.id (q.rel.id :: q.joined) c
  select : q.kind.isSelect = true → ∀ x ∈ s.onRefs, FoundOn cat x.scope x.col ∧
    x.scope.Sublist (q.rel.id :: q.joined)
  other : q.kind.isSelect = false → ∀ x ∈ s.onRefs, FoundOn cat (q.rel.id :: x.scope) x.col ∧
    x.scope.Sublist q.joined

theorem buildStmt_found {cat : Catalog} {q : Query} {rs : RelSpace} (hf : Fits q rs)
    (hp : ∀ j, q.join = some j → j.Placed) {t : TargetInfo} (hi : InfoFound cat q t) {g g' g'' : G}
    {js : List (TableJoin Slot)} (hj : buildJoins q t g = some (js, g')) {w : Option (BList Slot)}
    (hw : buildWhere q t g' = some (w, g'')) {l o : LimitVal Slot} {s : SQL Slot}
    (h : buildStmt q t (targetValues q t).vals { joins := js, wher := w, limit := l, offset := o } = some s) :
    StmtFound cat q s := by
  have hwh : ∀ c ∈ whereCols w, Found cat q.rel.id (q.rel.id :: q.joined) c := by
    intro c hc
    rcases buildWhere_cols hw c hc with h | h
    · obtain ⟨x, hx, rfl⟩ := List.mem_map.1 h
      exact (hi.pkeys x hx).1
    · exact hi.wher c h
  have hout : ∀ c ∈ (outputVals (α := Slot) t).flatMap VExpr.cols, Found cat q.rel.id (q.rel.id :: q.joined) c := by
    intro c hc
    rw [outputVals_cols] at hc
    obtain ⟨x, hx, rfl⟩ := List.mem_map.1 hc
    exact hi.reads x hx
  have hord : ∀ c ∈ (buildOrder q).map (·.column), Found cat q.rel.id (q.rel.id :: q.joined) c := by
    intro c hc
    obtain ⟨x, hx, rfl⟩ := List.mem_map.1 hc
    obtain ⟨i, hm, rfl⟩ := List.mem_map.1 hx
    exact hi.order i hm
  unfold buildStmt at h
  split at h
  · next hk =>
    cases h
    have hjn : q.joined = [] := by
      unfold Query.joined
      cases hq : q.join with
      | none => rfl
      | some j =>
        exfalso
        rcases (hf.join j hq).1 with h | h | h <;> rw [hk] at h <;> exact absurd h.2 (by decide)
    have hsel : q.kind.isSelect = false := by rw [hk]; rfl
    unfold buildInsert
    simp only
    split
    · split
      · refine ⟨by simp [Stmt.scope, hjn], ?_, by simp [hsel], by simp [SQL.onRefs, Stmt.onRefs]⟩
        simpa [Stmt.plainCols, Tail.cols] using hout
      · refine ⟨by simp [Stmt.scope, hjn], ?_, by simp [hsel], by simp [SQL.onRefs, Stmt.onRefs]⟩
        simpa [Stmt.plainCols, Tail.cols] using hout
    · refine ⟨by simp [Stmt.scope, hjn], ?_, by simp [hsel], by simp [SQL.onRefs, Stmt.onRefs]⟩
      simpa [Stmt.plainCols, Tail.cols] using hout
  · next hk =>
    have hsel : q.kind.isSelect = false := by rw [hk]; rfl
    simp only [buildUpdate, Option.map_eq_some_iff] at h
    obtain ⟨fr, hfr, rfl⟩ := h
    have hvals : (if q.isSliceUpdate then updateCols q t else (targetValues q t).vals).flatMap VExpr.cols = [] := by
      split
      · exact updateCols_cols
      · exact targetValues_cols
    have h1 := tableExprs_found hi hj hfr (ts := []) (.inl rfl)
    have h2 := tableExprs_found hi hj hfr (ts := [.values]) (.inr rfl)
    rw [List.append_nil] at h1
    split
    · refine ⟨by simp only [Stmt.scope, h2.rels], ?_, by simp [hsel], fun _ => h2.refs⟩
      intro c hc
      simp only [Stmt.plainCols, Tail.cols, hvals, List.flatMap_nil, List.append_nil, List.nil_append, whereCols,
        Option.map_none, Option.getD_none] at hc
      exact hwh c hc
    · split
      · refine ⟨by simp only [Stmt.scope, h1.rels], ?_, by simp [hsel], fun _ => h1.refs⟩
        intro c hc
        simp only [Stmt.plainCols, Tail.cols, hvals, List.flatMap_nil, List.append_nil, List.nil_append, whereCols,
          Option.map_none, Option.getD_none] at hc
        exact hout c hc
      · refine ⟨by simp only [Stmt.scope, h1.rels], ?_, by simp [hsel], fun _ => h1.refs⟩
        intro c hc
        simp only [Stmt.plainCols, Tail.cols, hvals, List.append_nil, List.nil_append, List.mem_append] at hc
        exact hc.elim (hwh c) (hout c)
  · next hk =>
    cases h
    have hsel : q.kind.isSelect = true := by rw [hk]; rfl
    obtain ⟨h1, h2⟩ := selectJoins_found hi (joins_of_select hf hp hsel) hj
    refine ⟨by simp only [Stmt.scope, h1], ?_, fun _ => h2, by simp [hsel]⟩
    intro c hc
    simp only [Stmt.plainCols, Tail.cols, List.append_nil, List.mem_append] at hc
    rcases hc with (hc | hc) | hc
    · exact hout c hc
    · exact hwh c hc
    · exact hord c hc
  · next hk =>
    cases h
    have hsel : q.kind.isSelect = true := by rw [hk]; rfl
    obtain ⟨h1, h2⟩ := selectJoins_found hi (joins_of_select hf hp hsel) hj
    unfold buildCount
    split
    · refine ⟨by simp only [Stmt.scope, h1], ?_, fun _ => h2, by simp [hsel]⟩
      intro c hc
      simp only [Stmt.plainCols, Tail.cols, List.append_nil, List.mem_append] at hc
      exact hc.elim (hwh c) (hord c)
    · refine ⟨by simp only [Stmt.scope, h1], ?_, fun _ => h2, by simp [hsel]⟩
      intro c hc
      simp [Stmt.plainCols, Tail.cols, whereCols] at hc
  · next hk =>
    cases h
    have hsel : q.kind.isSelect = true := by rw [hk]; rfl
    obtain ⟨h1, h2⟩ := selectJoins_found hi (joins_of_select hf hp hsel) hj
    unfold buildExists
    simp only
    split
    · refine ⟨by simp only [Stmt.scope, h1], ?_, fun _ => h2, by simp [hsel]⟩
      intro c hc
      simp only [Stmt.plainCols, Tail.cols, List.append_nil, List.mem_append] at hc
      exact hc.elim (hwh c) (hord c)
    · refine ⟨by simp only [Stmt.scope, h1], ?_, fun _ => h2, by simp [hsel]⟩
      intro c hc
      simp [Stmt.plainCols, Tail.cols, whereCols] at hc
  · next hk =>
    cases h
    have hsel : q.kind.isSelect = true := by rw [hk]; rfl
    obtain ⟨h1, h2⟩ := selectJoins_found hi (joins_of_select hf hp hsel) hj
    unfold buildExists
    simp only
    split
    · refine ⟨by simp only [Stmt.scope, h1], ?_, fun _ => h2, by simp [hsel]⟩
      intro c hc
      simp only [Stmt.plainCols, Tail.cols, List.append_nil, List.mem_append] at hc
      exact hc.elim (hwh c) (hord c)
    · refine ⟨by simp only [Stmt.scope, h1], ?_, fun _ => h2, by simp [hsel]⟩
      intro c hc
      simp [Stmt.plainCols, Tail.cols, whereCols] at hc
  · next hk =>
    have hsel : q.kind.isSelect = false := by rw [hk]; rfl
    simp only [buildDelete, Option.map_eq_some_iff] at h
    obtain ⟨fr, hfr, rfl⟩ := h
    have h1 := tableExprs_found hi hj hfr (ts := []) (.inl rfl)
    rw [List.append_nil] at h1
    refine ⟨by simp only [Stmt.scope, h1.rels], ?_, by simp [hsel], fun _ => h1.refs⟩
    intro c hc
    simp only [Stmt.plainCols, Tail.cols, List.append_nil, List.mem_append] at hc
    exact hc.elim (hwh c) (hout c)

/-- What an accepted query and its statement satisfy. -/
theorem built_found {cat : Catalog} {q : Query} {t : TargetInfo} {c : Code} (hb : Built cat q t)
    (hg : generate q t = some c) :
    ((q.rel.id :: q.joined).map relKey).Nodup ∧ InfoFound cat q t ∧ StmtFound cat q c.sql := by
  obtain ⟨env, cache, n, fs, s, e, rfl⟩ := hb.analyzed
  have hf := analyzeQuery_fits e
  have hs := analyzeQuery_spaced e
  have hi := checkQuery_found hf hb.checked
  obtain ⟨js, g1, w, g2, h1, h2, h3, _⟩ := generate_split hg
  exact ⟨hs.1.1, hi, buildStmt_found hf hs.2 hi h1 h2 h3⟩

end Verif.Generator.Names
