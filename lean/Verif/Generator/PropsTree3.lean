import Verif.Generator.PropsTree2

/- Property C94: the statement, as PostgreSQL reads it, selects the rows that the query asks for. -/
namespace Verif.Generator.Gram
open Verif.Analysis Verif.Postgres Verif.Generator.Lex Print

theorem stmtTree_wher {α : Type} (f : α → Bytes) (s : Stmt α) : (stmtTree f s).wher = s.wher.map (condsTree f) := by
  cases s <;> rfl

theorem filterMap_joinPart {α : Type} (f : α → Bytes) (l : List (TableExpr α)) :
    l.filterMap (joinPart f) = (l.filterMap TableExpr.asJoin).map (joinTree f) := by
  induction l with
  | nil => rfl
  | cons x l ih =>
    cases x with
    | rel r => exact ih
    | values => exact ih
    | join j =>
      rw [List.filterMap_cons, List.filterMap_cons]
      simp only [joinPart, TableExpr.asJoin, List.map_cons]
      rw [ih]

theorem tablesTree_joins {α : Type} {g : α → Bytes} (f : α → Bytes) {l : List (TableExpr α)} (h : TablesGram g l) :
    (tablesTree f l).joins = (l.filterMap TableExpr.asJoin).map (joinTree f) := by
  unfold TablesGram at h
  split at h
  · rfl
  · simp only [tablesTree, FromT.joins, filterMap_joinPart, List.filterMap_cons, TableExpr.asJoin]
  · cases h

theorem stmtTree_joins {α : Type} {g : α → Bytes} (f : α → Bytes) {s : Stmt α} (h : StmtGram g s) :
    (stmtTree f s).joins = s.joins.map (joinTree f) := by
  cases s with
  | update t cs vs fr w r => exact tablesTree_joins f h.2.2.2.2.1
  | delete t us w r => exact tablesTree_joins f h.2.1
  | _ => rfl

theorem gram_wher {α : Type} {g : α → Bytes} {s : Stmt α} (h : StmtGram g s) {l : BList α} (hl : s.wher = some l) :
    CondsGram g l := by
  cases s with
  | insert => cases hl
  | update => exact h.2.2.2.2.2.1 l hl
  | select => exact h.2.2.2.1 l hl
  | count => exact h.2.2.1 l hl
  | exists_ => exact h.2.2.2.1 l hl
  | delete => exact h.2.2.1 l hl

theorem tables_joins {α : Type} {g : α → Bytes} {l : List (TableExpr α)} (h : TablesGram g l) {j : TableJoin α}
    (hj : j ∈ l.filterMap TableExpr.asJoin) : JoinGram g j := by
  rw [List.mem_filterMap] at hj
  obtain ⟨x, hx, hj⟩ := hj
  unfold TablesGram at h
  split at h
  · cases hx
  · rcases List.mem_cons.1 hx with rfl | hx
    · cases hj
    · obtain ⟨y, rfl, hy⟩ := h.2 x hx
      cases hj
      exact hy
  · cases h

theorem gram_joins {α : Type} {g : α → Bytes} {s : Stmt α} (h : StmtGram g s) {j : TableJoin α} (hj : j ∈ s.joins) :
    JoinGram g j := by
  cases s with
  | insert => cases hj
  | update => exact tables_joins h.2.2.2.2.1 hj
  | select => exact h.2.2.1 j hj
  | count => exact h.2.1 j hj
  | exists_ => exact h.2.2.1 j hj
  | delete => exact tables_joins h.2.1 hj

theorem wher_slots {α : Type} {s : Stmt α} {l : BList α} (hl : s.wher = some l) : ∀ a ∈ l.slots, a ∈ s.slots := by
  intro a ha
  cases s <;> simp only [Stmt.wher] at hl <;> first
    | cases hl; done
    | (subst hl; simp [Stmt.slots, whereSlots, ha])

theorem tables_slots {α : Type} {l : List (TableExpr α)} {j : TableJoin α} (hj : j ∈ l.filterMap TableExpr.asJoin) {a : α}
    (ha : a ∈ j.cond.slots) : a ∈ l.flatMap TableExpr.slots := by
  rw [List.mem_filterMap] at hj
  obtain ⟨x, hx, hj⟩ := hj
  rw [List.mem_flatMap]
  cases x with
  | join y => cases hj; exact ⟨_, hx, ha⟩
  | _ => cases hj

theorem joins_slots {α : Type} {s : Stmt α} {j : TableJoin α} (hj : j ∈ s.joins) : ∀ a ∈ j.cond.slots, a ∈ s.slots := by
  intro a ha
  have key : ∀ l : List (TableJoin α), j ∈ l → a ∈ l.flatMap fun j => j.cond.slots := fun l hl =>
    List.mem_flatMap.2 ⟨j, hl, ha⟩
  cases s <;> simp only [Stmt.joins] at hj
  · cases hj
  · simp only [Stmt.slots, List.mem_append]
    exact .inl (.inl (.inr (tables_slots hj ha)))
  · simp only [Stmt.slots, List.mem_append]
    exact .inl (.inl (.inl (.inr (key _ hj))))
  · simp only [Stmt.slots, List.mem_append]
    exact .inl (.inl (key _ hj))
  · simp only [Stmt.slots, List.mem_append]
    exact .inl (.inl (.inl (key _ hj)))
  · simp only [Stmt.slots, List.mem_append]
    exact .inl (.inl (tables_slots hj ha))

/-- What the parameters stand for, given what they are resolved to. -/
theorem resolved_map {c : Code} {l : BList Slot} {l' : BList GoExpr}
    (h : l.map (resolve c.args c.g.slices) = l'.map some) : l.map (slotExpr c) = l' := by
  have h2 := congrArg (BList.map fun o => Option.getD o noSel) h
  simp only [BList.map_map] at h2
  have h3 : BList.map ((fun o => Option.getD o noSel) ∘ some) l' = l' := by
    have : ((fun o => Option.getD o noSel) ∘ some : GoExpr → GoExpr) = id := rfl
    rw [this, BList.map_id]
  rw [h3] at h2
  exact h2

theorem resolved_slots {c : Code} {l : BList Slot} {l' : BList GoExpr}
    (h : l.map (resolve c.args c.g.slices) = l'.map some) {a : Slot} (ha : a ∈ l.slots) {e : GoExpr}
    (he : resolve c.args c.g.slices a = some e) : e ∈ l'.slots := by
  have h1 := congrArg BList.slots h
  rw [BList.slots_map, BList.slots_map] at h1
  have h2 : some e ∈ l.slots.map (resolve c.args c.g.slices) := List.mem_map.2 ⟨a, ha, he⟩
  rw [h1] at h2
  obtain ⟨e', he', hx⟩ := List.mem_map.1 h2
  cases hx
  exact he'

theorem joins_inj {a b : List (TableJoin GoExpr)} (h : a.map (TableJoin.map some) = b.map (TableJoin.map some)) :
    a = b := by
  have h2 := congrArg (List.map (TableJoin.map fun o => Option.getD o noSel)) h
  have h3 : ∀ l : List (TableJoin GoExpr),
      (l.map (TableJoin.map some)).map (TableJoin.map fun o => Option.getD o noSel) = l := by
    intro l
    rw [List.map_map]
    have : (TableJoin.map (fun o => Option.getD o noSel) ∘ TableJoin.map some : TableJoin GoExpr → TableJoin GoExpr) = id := by
      funext j
      simp only [Function.comp_apply, TableJoin.map, BList.map_map]
      have h7 : ((fun o => Option.getD o noSel) ∘ some : GoExpr → GoExpr) = id := rfl
      rw [h7, BList.map_id]
      rfl
    rw [this, List.map_id]
  rwa [h3, h3] at h2

section
variable {V : Type} {D : DbRow V} {W : CondWorld V} {sent : Val → V}

/-- The conditions of a list that is resolved to fields that are no limits. -/
theorem holds_of {cat : Catalog} {q : Query} {t : TargetInfo} {c : Code} {w : World} {args : List Val}
    (h : Plain cat q t) (hg : generate q t = some c) (hf : q.filter = none) (ha : sentArgs q w c = some args)
    (hmax : args.length ≤ 65535) (hw : Filled w c) (hW : About D (args.map sent) W) (hF : Fields sent w c W)
    {l : BList Slot} {l' : BList GoExpr} (hl : l.map (resolve c.args c.g.slices) = l'.map some)
    (hgr : CondsGram kinds l) (hm : ∀ a ∈ l.slots, a ∈ c.slots) (hn : Suits D W (condsParts l))
    (hk : ∀ e ∈ l'.slots, kept e) {b : B3} (hb : evalList W l' = some b) :
    treeHolds D (args.map sent) (condsTree (fun a => (Generator.slotText w c a).getD []) l) = some b :=
  listHolds_of (g := slotExpr c) hW l hgr
    (fun a hx => bound_of h hg hf ha hmax hw hF (hm a hx) fun e he => hk e (resolved_slots hl hx he)) hn b
    (by rw [resolved_map hl]; exact hb)

variable {env : Env} {cache : Cache} {n : Bytes} {fs : List Field} {s : Analysis.St} {cat : Catalog} {t : TargetInfo}
  {c : Code}

/-- The WHERE clause. -/
theorem where_tree {w : World} (hc : CacheNamed cache) (ha : analyzeQuery env cache n fs = .ok s)
    (h : Plain cat s.q t) (hg : generate s.q t = some c) (hcat : CatPlain cat) (ht : ∀ x ∈ queryTexts s.q, Whole x)
    (hi : InfoFits s.q t) (hf : s.q.filter = none) (hw : Filled w c) (hne : s.q.kind ≠ .insert) {args : List Val}
    (hs : sentArgs s.q w c = some args) (hmax : args.length ≤ 65535)
    (hn : ∀ l, c.sql.stmt.wher = some l → Suits D W (condsParts l))
    (hW : About D (args.map sent) W) (hF : Fields sent w c W) {l : BList GoExpr} (hl : WhereIs c l) {b : B3}
    (hb : evalList W l = some b) :
    ∃ tree e, parse (lex (sentText w c)) = some tree ∧ tree.wher = some e ∧ treeHolds D (args.map sent) e = some b := by
  have h1 := C89_accepted w hc ha h.checked hg hcat ht hi hf h.one hw
  have h2 := generate_gram kinds_num kinds_slice hi hf h.one hg
  obtain ⟨sp, hsp, hsay⟩ := h.says hg
  have h3 := hsay.wher
  rw [sqlSpec_wher hsp hf h.one hne] at h3
  unfold WhereIs at hl
  rw [hl] at h3
  obtain ⟨l1, hl1, hl2⟩ : ∃ l1, c.sql.stmt.wher = some l1 ∧ l1.map (resolve c.args c.g.slices) = l.map some := by
    rw [Option.map_eq_some_iff] at hl
    exact hl
  have hspec : whereSpec s.q t = some l := by
    rw [eq_comm, Option.map_eq_some_iff] at h3
    obtain ⟨l3, h4, h5⟩ := h3
    have h6 := congrArg (BList.map fun o => Option.getD o noSel) h5
    simp only [BList.map_map] at h6
    have h7 : ((fun o => Option.getD o noSel) ∘ some : GoExpr → GoExpr) = id := rfl
    rw [h7, BList.map_id, BList.map_id] at h6
    rw [h4, h6]
  refine ⟨_, condsTree (fun a => (Generator.slotText w c a).getD []) l1, h1, ?_, ?_⟩
  · rw [stmtTree_wher, hl1]
    rfl
  · exact holds_of h hg hf hs hmax hw hW hF hl2 (gram_wher h2.1 hl1)
      (fun a hx => List.mem_append_left _ (wher_slots hl1 a hx)) (hn l1 hl1) (where_slots hspec) hb

/-- **C94** The statement that is sent for a query with a where struct is one of PostgreSQL's, and with the parameters
that are sent its WHERE is true of a row, false of it or unknown as the where struct says, with the values that the
fields of the query have. -/
theorem C94_where_partial {w : World} (hc : CacheNamed cache) (ha : analyzeQuery env cache n fs = .ok s)
    (h : Plain cat s.q t) (hg : generate s.q t = some c) (hcat : CatPlain cat) (ht : ∀ x ∈ queryTexts s.q, Whole x)
    (hi : InfoFits s.q t) (hw : Filled w c) {args : List Val}
    (hs : sentArgs s.q w c = some args) (hmax : args.length ≤ 65535)
    (hn : ∀ l, c.sql.stmt.wher = some l → Suits D W (condsParts l))
    (hW : About D (args.map sent) W) (hF : Fields sent w c W)
    (x : WhereStruct) (hx : s.q.wher = some x) (hne : x.items ≠ []) (hwf : WellFormed x.items)
    (hr : renderedAll x.items = true) :
    ∃ tree e, parse (lex (sentText w c)) = some tree ∧ tree.wher = some e ∧
      treeHolds D (args.map sent) e = some (askedAll W [b!"q", x.fieldName] x.items) := by
  obtain ⟨l, hl, he⟩ := C64_where_partial h hg x hx hne hwf hr
  have hf : s.q.filter = none := by
    cases hq : s.q.filter with
    | none => rfl
    | some f =>
      have := h.toBuilt.shape.filterOnly (by simp [hq])
      rw [hx] at this
      cases this
  have hkind : s.q.kind ≠ .insert := by
    intro hk
    have := (h.toBuilt.shape.insertRows hk).1
    rw [hx] at this
    cases this
  exact where_tree hc ha h hg hcat ht hi hf hw hkind hs hmax hn hW hF hl (he V W)

/-- **C94** An update of a record by its key changes the row whose key the record has. -/
theorem C94_keys {w : World} (hc : CacheNamed cache) (ha : analyzeQuery env cache n fs = .ok s)
    (h : Plain cat s.q t) (hg : generate s.q t = some c) (hcat : CatPlain cat) (ht : ∀ x ∈ queryTexts s.q, Whole x)
    (hi : InfoFits s.q t) (hw : Filled w c) {args : List Val}
    (hs : sentArgs s.q w c = some args) (hmax : args.length ≤ 65535)
    (hn : ∀ l, c.sql.stmt.wher = some l → Suits D W (condsParts l))
    (hW : About D (args.map sent) W) (hF : Fields sent w c W)
    (hk : s.q.kind = .update) (hwh : s.q.hasWhere = false) (hne : t.pkeys ≠ []) :
    ∃ tree e, parse (lex (sentText w c)) = some tree ∧ tree.wher = some e ∧
      treeHolds D (args.map sent) e = some (all3 (fun p =>
        D.op [.op b!"="] (W.col p.colIdent) (W.field (recordPath s.q p.field))) t.pkeys) := by
  obtain ⟨l, hl, he⟩ := C64_pkeys h hg hk hwh hne
  have hf : s.q.filter = none := by
    cases hq : s.q.filter with
    | none => rfl
    | some f => simp [Query.hasWhere, hq] at hwh
  have h1 := where_tree hc ha h hg hcat ht hi hf hw (by rw [hk]; decide) hs hmax hn hW hF hl (he V W)
  have h2 : W.op b!"=" = D.op [.op b!"="] := hW.op .eq
  simp only [h2] at h1
  exact h1

/-- **C94** Every join is with the table of its directive and on the condition that the directive asks for. -/
theorem C94_joins_partial {w : World} (hc : CacheNamed cache) (ha : analyzeQuery env cache n fs = .ok s)
    (h : Plain cat s.q t) (hg : generate s.q t = some c) (hcat : CatPlain cat) (ht : ∀ x ∈ queryTexts s.q, Whole x)
    (hi : InfoFits s.q t) (hf : s.q.filter = none) (hw : Filled w c) {args : List Val}
    (hs : sentArgs s.q w c = some args) (hmax : args.length ≤ 65535)
    (hn : ∀ j ∈ c.sql.stmt.joins, Suits D W (condsParts j.cond))
    (hW : About D (args.map sent) W) (hF : Fields sent w c W) (j : JoinStruct) (hj : s.q.join = some j) :
    ∃ tree, parse (lex (sentText w c)) = some tree ∧ tree.joins.length = j.directives.length ∧
      ∀ (i : Nat) (d : JoinDir), j.directives[i]? = some d → ∃ x, tree.joins[i]? = some x ∧
        x.kind = joinWord d.joinType ∧ x.rel = relTree d.relIdent ∧ (d.items = [] → x.on = none) ∧
        (d.items ≠ [] → renderedAll (d.items.map JItem.asItem) = true → ∃ e, x.on = some e ∧
          treeHolds D (args.map sent) e = some (askedAll W [] (d.items.map JItem.asItem))) := by
  have h1 := C89_accepted w hc ha h.checked hg hcat ht hi hf h.one hw
  have h2 := generate_gram kinds_num kinds_slice hi hf h.one hg
  obtain ⟨js, hjs, hlen, hall⟩ := C64_joins_partial h hg j hj
  have hkind : s.q.kind ≠ .insert := by
    intro hk
    have f := analyzeQuery_fits ha
    rcases (f.join j hj).1 with ⟨_, h1⟩ | ⟨_, h1⟩ | ⟨_, h1⟩ <;> simp [hk, QKind.isSelect] at h1
  obtain ⟨sp, hsp, hsay⟩ := h.says hg
  have h3 := hsay.joins
  rw [sqlSpec_joins hsp h.one hkind, hjs] at h3
  have h4 : js = joinsSpec s.q t := joins_inj h3
  refine ⟨_, h1, ?_, fun i d hd => ?_⟩
  · rw [stmtTree_joins _ h2.1, List.length_map]
    have := congrArg List.length hjs
    simp only [List.length_map] at this
    rw [this, hlen]
  · obtain ⟨x, hx, hty, hrel, hnil, hcond⟩ := hall i d hd
    have h5 := congrArg (fun l => l[i]?) hjs
    simp only [List.getElem?_map, hx, Option.map_some] at h5
    rw [Option.map_eq_some_iff] at h5
    obtain ⟨y, hy, h6⟩ := h5
    simp only [TableJoin.map, TableJoin.mk.injEq] at h6
    obtain ⟨h7, h8, h9⟩ := h6
    have hmem : y ∈ c.sql.stmt.joins := List.mem_of_getElem? hy
    refine ⟨joinTree (fun a => (Generator.slotText w c a).getD []) y, ?_, ?_, ?_, ?_, ?_⟩
    · rw [stmtTree_joins _ h2.1, List.getElem?_map, hy]
      rfl
    · rw [joinTree, h7, hty]
    · rw [joinTree, h8, hrel]
    · intro hd0
      rw [hnil hd0] at h9
      have : y.cond = .nil := by
        cases hyc : y.cond with
        | nil => rfl
        | cons => rw [hyc, BList.map, BList.map] at h9; cases h9
      rw [joinTree, this]
      rfl
    · intro hd1 hr
      have h10 := hcond hd1 hr V W
      have hcons : isNil y.cond = false := by
        cases hyc : y.cond with
        | cons => rfl
        | nil =>
          rw [hyc, BList.map] at h9
          cases hxc : x.cond with
          | nil => rw [hxc, evalList] at h10; cases h10; simp
          | cons => rw [hxc, BList.map] at h9; cases h9
      refine ⟨_, ?_, holds_of h hg hf hs hmax hw hW hF h9 ?_
        (fun a hx => List.mem_append_left _ (joins_slots hmem a hx)) (hn y hmem) ?_ h10⟩
      · rw [joinTree, hcons]
        rfl
      · have := (gram_joins h2.1 hmem).2
        split at this
        · rw [hcons] at this; cases this
        · exact this
      · rw [h4] at hx
        exact join_slots (List.mem_of_getElem? hx)

end

end Verif.Generator.Gram
