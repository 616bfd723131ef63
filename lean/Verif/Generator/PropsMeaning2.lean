import Verif.Generator.PropsMeaning

/- C64: whole statements.  C45: ranges. -/
namespace Verif.Generator
open Verif.Analysis Verif.Postgres

variable {V : Type}

/-! ### The WHERE clause -/

/-- The WHERE clause. -/
def Stmt.wher {α : Type} : Stmt α → Option (BList α)
  | .insert .. => none
  | .update _ _ _ _ w _ => w
  | .select _ _ _ w _ _ _ => w
  | .count _ _ w _ _ => w
  | .exists_ _ _ _ _ w _ _ _ => w
  | .delete _ _ w _ => w

/-- The joined table an entry of a FROM or USING list is, if any. -/
def TableExpr.asJoin {α : Type} : TableExpr α → Option (TableJoin α)
  | .join j => some j
  | _ => none

/-- The joined tables. -/
def Stmt.joins {α : Type} : Stmt α → List (TableJoin α)
  | .insert .. => []
  | .update _ _ _ f _ _ => f.filterMap TableExpr.asJoin
  | .select _ _ j _ _ _ _ => j
  | .count _ j _ _ _ => j
  | .exists_ _ _ _ j _ _ _ _ => j
  | .delete _ f _ _ => f.filterMap TableExpr.asJoin

theorem Stmt.wher_map {α β : Type} (f : α → β) (s : Stmt α) : (s.map f).wher = s.wher.map (BList.map f) := by
  cases s <;> rfl

theorem Stmt.joins_map {α β : Type} (f : α → β) (s : Stmt α) :
    (s.map f).joins = s.joins.map (TableJoin.map f) := by
  have key : ∀ l : List (TableExpr α),
      (l.map (TableExpr.map f)).filterMap TableExpr.asJoin =
        (l.filterMap TableExpr.asJoin).map (TableJoin.map f) := by
    intro l
    induction l with
    | nil => rfl
    | cons x l ih => cases x <;> simp [TableExpr.map, List.filterMap_cons, TableExpr.asJoin, ih]
  cases s with
  | update a b c d e g => exact key d
  | delete a b c d => exact key b
  | _ => rfl

/-- The clause of the generated statement, with the arguments in place of the parameters, is `l`. -/
def WhereIs (c : Code) (l : BList GoExpr) : Prop :=
  c.sql.stmt.wher.map (BList.map (resolve c.args c.g.slices)) = some (l.map some)

theorem sqlSpec_wher {q : Query} {t : TargetInfo} {s : SQL GoExpr} (hs : sqlSpec q t = some s)
    (hf : q.filter = none) (hi : isInsertOrUpdateSlice q = false) (hk : q.kind ≠ .insert) :
    s.stmt.wher = whereSpec q t := by
  unfold sqlSpec buildStmt at hs
  cases h : q.kind <;> rw [h] at hs <;> simp only [Option.some.injEq] at hs
  · exact absurd h hk
  · simp only [buildUpdate, Option.map_eq_some_iff] at hs
    obtain ⟨fr, _, rfl⟩ := hs
    have : q.rel.type.isSlice = false := by
      simpa [isInsertOrUpdateSlice, isInsertOrUpdate, h] using hi
    simp [this, hf, Stmt.wher]
  all_goals first
    | (rw [← hs]; rfl)
    | (rw [← hs]; simp [buildCount, buildExists, hf, Stmt.wher])
    | (simp only [buildDelete, Option.map_eq_some_iff] at hs
       obtain ⟨us, _, rfl⟩ := hs
       rfl)

theorem Says.wher {c : Code} {s : SQL GoExpr} (h : Says c s) :
    c.sql.stmt.wher.map (BList.map (resolve c.args c.g.slices)) = s.stmt.wher.map (BList.map some) := by
  have : (c.sql.map (resolve c.args c.g.slices)).stmt = (s.map some).stmt := by rw [h]
  have := congrArg Stmt.wher this
  simpa only [SQL.map, Stmt.wher_map] using this

theorem Built.whereSound {cat : Catalog} {q : Query} {t : TargetInfo} (h : Built cat q t) {w : WhereStruct}
    (hw : q.wher = some w) : ∀ i ∈ w.items, SoundItem i := by
  obtain ⟨env, cache, n, fs, s, e, rfl⟩ := h.analyzed
  exact fun i hi => ((analyzeQuery_fits e).wher w hw i hi).1

/-- **C64** For the row at hand the WHERE clause is true, false or unknown just as the where struct asks:
some group of conditions between ORs is satisfied, each by the column, the operator and the field (or
column or literal) of its tag, groups in parentheses by themselves. -/
theorem C64_where_partial {cat : Catalog} {q : Query} {t : TargetInfo} {c : Code} (h : Plain cat q t)
    (hc : generate q t = some c) (w : WhereStruct) (hw : q.wher = some w) (hne : w.items ≠ [])
    (hwf : WellFormed w.items) (hr : renderedAll w.items = true) :
    ∃ l, WhereIs c l ∧
      ∀ (V : Type) (W : CondWorld V), evalList W l = some (askedAll W [b!"q", w.fieldName] w.items) := by
  obtain ⟨s, hs, hsay⟩ := h.says hc
  obtain ⟨ck, _, _, _, _, _, _, _, _, _, _, hck⟩ := checkQuery_ok h.toBuilt.checked
  rw [hw] at hck
  simp only [Option.map_some, Option.getD_some] at hck
  have hkind : q.kind ≠ .insert := by
    intro hk
    have := (h.toBuilt.shape.insertRows hk).1
    rw [hw] at this
    cases this
  have hfil : q.filter = none := by
    cases hq : q.filter with
    | none => rfl
    | some f =>
      have := h.toBuilt.shape.filterOnly (by simp [hq])
      rw [hw] at this
      cases this
  have hwhere : whereSpec q t = some (condListSpec (.sel recv w.fieldName) true none t.wher) := by
    have h1 : isUpdateWithPKeys q = false := by simp [isUpdateWithPKeys, Query.hasWhere, hw]
    have h2 : t.wher.length > 0 := by
      cases hi : w.items with
      | nil => exact absurd hi hne
      | cons i is =>
        rw [hi] at hck
        simp only [checkWhereItems, Res.bind_eq_ok, Res.map_eq_ok] at hck
        obtain ⟨_, _, _, _, hx⟩ := hck
        rw [← hx]
        exact Nat.succ_pos _
    simp [whereSpec, h1, hw, h2]
  refine ⟨condListSpec (.sel recv w.fieldName) true none t.wher, ?_, ?_⟩
  · rw [WhereIs, hsay.wher, sqlSpec_wher hs hfil h.one hkind, hwhere]; rfl
  · intro V W
    exact eval_items W ck (.sel recv w.fieldName) w.items t.wher hne hwf (h.toBuilt.whereSound hw) hr hck

/-! ### Primary keys -/

theorem pkeys_fields {cat : Catalog} {q : Query} {t : TargetInfo} (h : checkQuery cat q = .ok t) :
    ∀ p ∈ t.pkeys, q.rel.type.fields[p.idx]? = some p.field ∧ p.column.isPrimary = true ∧
      p.colIdent = { qualifier := q.rel.id.alias, name := p.field.colIdent.name } := by
  obtain ⟨c, hc, r1, r2, rw', _, _, hrel, _, _, hp, _⟩ := checkQuery_ok h
  by_cases hq : Writing q
  · obtain ⟨l, hl, hwr, he, _⟩ := checkRel_writing hq hrel
    rw [hp, he]
    intro p hm
    rw [List.mem_flatten] at hm
    obtain ⟨ws, hws, hm⟩ := hm
    rw [List.mem_map] at hws
    obtain ⟨y, hy, rfl⟩ := hws
    obtain ⟨x, hx, hxy⟩ := hl.mem_right y hy
    rcases checkRelWrite_ok hxy with ⟨_, _, rfl⟩ | ⟨w', hw', rfl⟩
    · cases hm
    · simp only at hm
      split at hm
      · rename_i hpr
        rw [List.mem_singleton] at hm
        subst hm
        obtain ⟨a1, a2, _, a4⟩ := checkWrite_ok hw'
        refine ⟨?_, hpr, by rw [a4, hc.rid, a2]⟩
        rw [a1, a2]
        have := List.mem_zipIdx_iff_getElem?.1 hx
        simpa using this
      · cases hm
  · rw [hp, checkRel_not_writing hq hrel]
    simp

/-- The path of a field of the record. -/
def recordPath (q : Query) (f : FieldInfo) : List Bytes :=
  [b!"q", q.rel.fieldName] ++ f.selector.map (·.name) ++ [f.name]

theorem goPath_foldl (l : List SelNode) (x : GoExpr) :
    goPath (l.foldl (fun x n => .sel x n.name) x) = goPath x ++ l.map (·.name) := by
  induction l generalizing x with
  | nil => simp
  | cons n l ih => simp [ih, goPath]

theorem goPath_fieldSel (q : Query) (hs : q.rel.type.isSlice = false) (f : FieldInfo) :
    goPath (fieldSel (inputRoot q) f) = recordPath q f := by
  simp [fieldSel, goPath, goPath_foldl, inputRoot, hs, recv, recordPath]

theorem pkeyExpr_path {cat : Catalog} {q : Query} {t : TargetInfo} (h : checkQuery cat q = .ok t)
    (hs : q.rel.type.isSlice = false) (p : FieldWrite) (hp : p ∈ t.pkeys) :
    goPath (pkeyExpr q t p) = recordPath q p.field := by
  rcases C39_pkey q t p with ⟨_, he⟩ | ⟨w, hw, hi, he⟩
  · rw [he, goPath_fieldSel q hs]
  · rw [he, writeArg, goPath_addConv, goPath_fieldSel q hs]
    have h1 := ((C49_writes h).1 w hw).1
    have h2 := (pkeys_fields h p hp).1
    rw [hi, h2] at h1
    rw [Option.some.inj h1]

/-- **C64** The WHERE clause of an update without where struct, filter and All: every column of the primary
key equals the field of the record for it. -/
theorem C64_pkeys {cat : Catalog} {q : Query} {t : TargetInfo} {c : Code} (h : Plain cat q t)
    (hc : generate q t = some c) (hk : q.kind = .update) (hw : q.hasWhere = false) (hne : t.pkeys ≠ []) :
    ∃ l, WhereIs c l ∧ ∀ (V : Type) (W : CondWorld V),
      evalList W l = some (all3 (fun p => W.op b!"=" (W.col p.colIdent) (W.field (recordPath q p.field)))
        t.pkeys) := by
  obtain ⟨s, hs, hsay⟩ := h.says hc
  have hsl := h.notSlice (.inr hk)
  have hfil : q.filter = none := by
    cases hq : q.filter with
    | none => rfl
    | some f => simp [Query.hasWhere, hq] at hw
  have hu : isUpdateWithPKeys q = true := by simp [isUpdateWithPKeys, hk, hw]
  have hwhere : whereSpec q t = some (pkeySpec q t true t.pkeys) := by simp [whereSpec, hu]
  refine ⟨pkeySpec q t true t.pkeys, ?_, ?_⟩
  · rw [WhereIs, hsay.wher, sqlSpec_wher hs hfil h.one (by rw [hk]; decide), hwhere]; rfl
  · intro V W
    have hpath := pkeyExpr_path h.toBuilt.checked hsl
    have hrest : ∀ (ps : List FieldWrite) (acc : B3), (∀ p ∈ ps, p ∈ t.pkeys) →
        evalRest W acc (pkeySpec q t false ps) =
          some (and3 acc (all3 (fun p => W.op b!"=" (W.col p.colIdent) (W.field (recordPath q p.field))) ps)) := by
      intro ps
      induction ps with
      | nil => intro acc _; simp [pkeySpec, evalRest, all3, and3_true]
      | cons p ps ih =>
        intro acc hm
        have hp := hpath p (hm p (by simp))
        simp only [pkeySpec, Bool.false_eq_true, if_false, evalRest, evalB, evalBin, evalV, Option.bind_some,
          Option.map_some, hp, ih _ (fun p h => hm p (by simp [h])), BinOp.text, and3_assoc]
        rfl
    cases hps : t.pkeys with
    | nil => exact absurd hps hne
    | cons p ps =>
      have hp := hpath p (by simp [hps])
      simp only [pkeySpec, if_true, evalList, evalB, evalBin, evalV, Option.bind_some,
          Option.map_some, hp, hrest ps _ (fun p h => by simp [hps, h]), BinOp.text]
      rfl

/-! ### Joins -/

/-- An item of a join directive as an item of a where struct. -/
def JItem.asItem : JItem → WItem
  | .bool b => .bool b
  | .cond c => .column c

theorem eval_join {c : Checker} {rel : Relation} (W : CondWorld V) : ∀ (l : List (Bool × ColCond))
    (ys : List JoinCond) (b : Option Bool) (acc : B3), mapP (checkJoinItem c rel) (withOps l) = .ok ys →
    (∀ p ∈ l, p.2.Sound) → (∀ p ∈ l, rendered (.column p.2) = true) →
    evalRest W acc (condListSpec noSel false b (ys.map joinCond)) =
      some (or3 (and3 acc (askedAnd W [] ((withOps l).map JItem.asItem)))
        (askedOr W [] ((withOps l).map JItem.asItem)))
  | [], ys, b, acc, h, _, _ => by
    simp only [withOps, List.flatMap_nil, mapP, Res.ok.injEq] at h
    subst h
    simp [condListSpec, evalRest, withOps, askedAnd, askedOr, and3_true, or3_false]
  | (o, cc) :: l, ys, b, acc, h, hs, hr => by
    have hw : withOps ((o, cc) :: l) = .bool o :: .cond cc :: withOps l := rfl
    rw [hw] at h ⊢
    simp only [mapP, checkJoinItem, checkColCond, Res.bind_eq_ok, Res.map_eq_ok, Res.ok.injEq] at h
    obtain ⟨_, rfl, _, ⟨_, ⟨r, ⟨_, _, hx⟩, rfl⟩, ys', hys, rfl⟩, rfl⟩ := h
    have hr' := hr _ (List.mem_cons_self ..)
    rw [rendered, Bool.and_eq_true, Bool.not_eq_true', Bool.not_eq_true'] at hr'
    have he := eval_column W (hs _ (List.mem_cons_self ..)) hr'.1 hr'.2 (checkColCond_pred hx)
    simp only [List.map_cons, joinCond, condListSpec_bool]
    rw [condListSpec_cond noSel _ _ rfl, condSpec]
    have ih := fun acc => eval_join W l ys' (some o) acc hys (fun p hp => hs p (by simp [hp]))
      (fun p hp => hr p (by simp [hp]))
    cases o <;> simp [addItem, evalRest, he, ih, JItem.asItem, askedAnd, askedOr, askedItem, and3_true,
      and3_assoc]

theorem eval_joins {c : Checker} {rel : Relation} (W : CondWorld V) (items : List JItem) (cs : List JoinCond)
    (hl : ∃ l, items = (withOps l).drop 1) (hne : items ≠ [])
    (hs : ∀ cc, .cond cc ∈ items → cc.Sound) (hr : renderedAll (items.map JItem.asItem) = true)
    (h : mapP (checkJoinItem c rel) items = .ok cs) :
    evalList W (condListSpec noSel true none (cs.map joinCond)) =
      some (askedAll W [] (items.map JItem.asItem)) := by
  obtain ⟨l, rfl⟩ := hl
  cases l with
  | nil => exact absurd rfl hne
  | cons p l =>
    obtain ⟨o, cc⟩ := p
    have hw : (withOps ((o, cc) :: l)).drop 1 = .cond cc :: withOps l := rfl
    rw [hw] at hs hr h ⊢
    simp only [mapP, checkJoinItem, checkColCond, Res.bind_eq_ok, Res.map_eq_ok] at h
    obtain ⟨_, ⟨r, ⟨_, _, hx⟩, rfl⟩, ys, hys, rfl⟩ := h
    simp only [List.map_cons, renderedAll, Bool.and_eq_true] at hr
    have hr' := hr.1
    simp only [JItem.asItem, rendered, Bool.and_eq_true, Bool.not_eq_true'] at hr'
    have he := eval_column W (hs cc (by simp)) hr'.1 hr'.2 (checkColCond_pred hx)
    have hall : ∀ p ∈ l, rendered (.column p.2) = true := by
      intro p hp
      have : ∀ is : List WItem, renderedAll is = true → ∀ i ∈ is, rendered i = true := by
        intro is
        induction is with
        | nil => simp
        | cons i is ih =>
          intro h j hj
          simp only [renderedAll, Bool.and_eq_true] at h
          rcases List.mem_cons.1 hj with rfl | hj
          · exact h.1
          · exact ih h.2 j hj
      refine this _ hr.2 _ (List.mem_map.2 ⟨.cond p.2, ?_, rfl⟩)
      exact List.mem_flatMap.2 ⟨p, hp, by simp⟩
    have hss : ∀ p ∈ l, p.2.Sound := by
      intro p hp
      refine hs p.2 (List.mem_cons_of_mem _ ?_)
      exact List.mem_flatMap.2 ⟨p, hp, by simp⟩
    rw [List.map_cons, joinCond, condListSpec_cond noSel _ _ rfl, condSpec, addItem, if_pos rfl, evalList, he,
      Option.bind_some, eval_join W l ys none _ hys hss hall]
    simp [JItem.asItem, askedAll, askedAnd, askedOr, askedItem]

theorem sqlSpec_joins {q : Query} {t : TargetInfo} {s : SQL GoExpr} (hs : sqlSpec q t = some s)
    (hi : isInsertOrUpdateSlice q = false) (hk : q.kind ≠ .insert) : s.stmt.joins = joinsSpec q t := by
  have key : ∀ (js : List (TableJoin GoExpr)) (r : RelIdent),
      (TableExpr.rel r :: js.map TableExpr.join).filterMap
        TableExpr.asJoin = js := by
    intro js r
    induction js with
    | nil => rfl
    | cons x l ih => simpa [List.filterMap_cons, TableExpr.asJoin] using ih
  have ht : ∀ fr, tableExprs q (joinsSpec q t) = some fr →
      fr.filterMap TableExpr.asJoin = joinsSpec q t := by
    intro fr hfr
    unfold tableExprs at hfr
    cases hj : q.join with
    | none =>
      rw [hj] at hfr
      cases hfr
      simp [joinsSpec, hj]
    | some j =>
      rw [hj] at hfr
      simp only [Option.map_eq_some_iff] at hfr
      obtain ⟨r, _, rfl⟩ := hfr
      exact key _ r
  unfold sqlSpec buildStmt at hs
  cases h : q.kind <;> rw [h] at hs <;> simp only [Option.some.injEq] at hs
  · exact absurd h hk
  · simp only [buildUpdate, Option.map_eq_some_iff] at hs
    obtain ⟨fr, hfr, rfl⟩ := hs
    have hsl : q.rel.type.isSlice = false := by
      simpa [isInsertOrUpdateSlice, isInsertOrUpdate, h] using hi
    simp only [hsl, Bool.false_eq_true, if_false]
    split <;> exact ht fr hfr
  all_goals first
    | (rw [← hs]; rfl)
    | (rw [← hs]; simp only [buildCount, buildExists]; split <;> rfl)
    | (simp only [buildDelete, Option.map_eq_some_iff] at hs
       obtain ⟨us, hus, rfl⟩ := hs
       exact ht us hus)

theorem Says.joins {c : Code} {s : SQL GoExpr} (h : Says c s) :
    c.sql.stmt.joins.map (TableJoin.map (resolve c.args c.g.slices)) =
      s.stmt.joins.map (TableJoin.map some) := by
  have : (c.sql.map (resolve c.args c.g.slices)).stmt = (s.map some).stmt := by rw [h]
  have := congrArg Stmt.joins this
  simpa only [SQL.map, Stmt.joins_map] using this

theorem checkJoinDirs_each : ∀ (ds : List JoinDir) (c : Checker) (r : Checker × List (List JoinCond)),
    checkJoinDirs c ds = .ok r → ∀ (i : Nat) (d : JoinDir), ds[i]? = some d →
      ∃ c1 rel cs, r.2[i]? = some cs ∧ mapP (checkJoinItem c1 rel) d.items = .ok cs
  | [], _, _, _, i, d, hd => by simp at hd
  | d0 :: ds, c, r, h, i, d, hd => by
    simp only [checkJoinDirs, Res.bind_eq_ok, Res.map_eq_ok] at h
    obtain ⟨cr, _, items, hi, r', hr, rfl⟩ := h
    cases i with
    | zero =>
      simp only [List.getElem?_cons_zero, Option.some.injEq] at hd
      subst hd
      exact ⟨_, _, items, rfl, hi⟩
    | succ i => simpa using checkJoinDirs_each ds cr.1 r' hr i d (by simpa using hd)

/-- **C64** The joined tables are those of the join struct, in its order, each with the type of join and
the condition its tag asks for; without conditions there is none. -/
theorem C64_joins_partial {cat : Catalog} {q : Query} {t : TargetInfo} {c : Code} (h : Plain cat q t)
    (hc : generate q t = some c) (j : JoinStruct) (hj : q.join = some j) :
    ∃ js : List (TableJoin GoExpr),
      c.sql.stmt.joins.map (TableJoin.map (resolve c.args c.g.slices)) = js.map (TableJoin.map some) ∧
      js.length = j.directives.length ∧
      ∀ (i : Nat) (d : JoinDir), j.directives[i]? = some d → ∃ x, js[i]? = some x ∧
        x.type = d.joinType ∧ x.rel = d.relIdent ∧ (d.items = [] → x.cond = .nil) ∧
        (d.items ≠ [] → renderedAll (d.items.map JItem.asItem) = true → ∀ (V : Type) (W : CondWorld V),
          evalList W x.cond = some (askedAll W [] (d.items.map JItem.asItem))) := by
  obtain ⟨s, hs, hsay⟩ := h.says hc
  obtain ⟨env, cache, n, fs, st, e, hst⟩ := h.toBuilt.analyzed
  have f := analyzeQuery_fits e
  rw [hst] at f
  have hkind : q.kind ≠ .insert := by
    intro hk
    rcases (f.join j hj).1 with ⟨_, h1⟩ | ⟨_, h1⟩ | ⟨_, h1⟩ <;> simp [hk, QKind.isSelect] at h1
  obtain ⟨c0, c1, hck⟩ := checkQuery_joins h.toBuilt.checked
  rw [hj] at hck
  simp only [checkJoin, Res.bind_eq_ok] at hck
  obtain ⟨c2, _, hck⟩ := hck
  have hlen := checkJoinDirs_length _ _ _ hck
  simp only at hlen
  refine ⟨joinsSpec q t, ?_, ?_, ?_⟩
  · rw [hsay.joins, sqlSpec_joins hs h.one hkind]
  · simp [joinsSpec, hj, hlen]
  · intro i d hd
    obtain ⟨c3, rel, cs, hcs, hm⟩ := checkJoinDirs_each _ _ _ hck i d hd
    simp only at hcs
    refine ⟨joinSpec d cs, ?_, rfl, rfl, ?_, ?_⟩
    · simp [joinsSpec, hj, List.getElem?_zipWith, hd, hcs]
    · intro hn
      rw [hn] at hm
      simp only [mapP, Res.ok.injEq] at hm
      simp [joinSpec, ← hm, condListSpec]
    · intro hne hr V W
      have hmem : d ∈ j.directives := List.mem_of_getElem? hd
      refine eval_joins W d.items cs (f.joinLinked j hj d hmem) hne ?_ hr hm
      intro cc hcc
      refine ((f.join j hj).2 d hmem cc ?_).1
      exact List.mem_filterMap.2 ⟨_, hcc, rfl⟩

/-! ### Ranges -/

/-- **C45** For BETWEEN and BETWEEN ASYMMETRIC the condition is the one asked for. -/
theorem C45_between_partial (W : CondWorld V) (sx : GoExpr) {c : Checker} {b : BetweenCond}
    {r : BetweenConditional} (h : checkBetween c b = .ok r)
    (hp : b.pred = some .isBetween ∨ b.pred = some .isBetweenAsym) :
    evalB W (condSpec sx (.between r)) = some (askedBetween W (goPath sx) b) := by
  rw [C45_rendered W sx h, askedBetween]
  rcases hp with hp | hp <;> rw [hp] <;> rfl

/-- **C45** For NOT BETWEEN and NOT BETWEEN ASYMMETRIC it is the opposite: for every row for which the
condition asked for is true it is false, and conversely. -/
theorem C45_not_negated (W : CondWorld V) (sx : GoExpr) {c : Checker} {b : BetweenCond}
    {r : BetweenConditional} (h : checkBetween c b = .ok r)
    (hp : b.pred = some .notBetween ∨ b.pred = some .notBetweenAsym) :
    evalB W (condSpec sx (.between r)) = some (not3 (askedBetween W (goPath sx) b)) := by
  rw [C45_rendered W sx h, askedBetween]
  rcases hp with hp | hp <;> rw [hp] <;> simp [askedRange, not3_not3]

/-- **C45** For BETWEEN SYMMETRIC it is the condition asked for as long as the value does not lie in the
range from the upper to the lower bound. -/
theorem C45_symmetric_partial (W : CondWorld V) (sx : GoExpr) {c : Checker} {b : BetweenCond}
    {r : BetweenConditional} (h : checkBetween c b = .ok r) (hp : b.pred = some .isBetweenSym)
    (hu : inRange W (W.col b.colIdent) (boundVal W (goPath sx ++ [b.name]) b.upper)
      (boundVal W (goPath sx ++ [b.name]) b.lower) = some false) :
    evalB W (condSpec sx (.between r)) = some (askedBetween W (goPath sx) b) := by
  rw [C45_rendered W sx h, askedBetween, hp]
  simp [askedRange, hu, or3_false]

end Verif.Generator
