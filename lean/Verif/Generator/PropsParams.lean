import Verif.Generator.Pipeline

/-
C39: the parameters of a generated statement and the arguments passed with it.

The statements of slices of records (insert and update) are completed at run time: see PropsBatch.lean.
-/
namespace Verif.Generator
open Verif.Analysis Verif.Postgres

/-- With the n-th argument in place of `$n`, and the k-th slice in place of the k-th list, the statement is
the given one. -/
def Says (c : Code) (s : SQL GoExpr) : Prop := c.sql.map (resolve c.args c.g.slices) = s.map some

/-- The query is accepted, and none of the exceptions of C39 applies. -/
structure Plain (cat : Catalog) (q : Query) (t : TargetInfo) : Prop extends Built cat q t where
  /-- not a slice of records to be written -/
  one : isInsertOrUpdateSlice q = false
  /-- [NOT] IN is used with fields, not with columns or literals -/
  fields : inUsesFields q = true
  /-- an update by primary key does not set the key to DEFAULT -/
  keys : keysKept q t

theorem Plain.spec {cat : Catalog} {q : Query} {t : TargetInfo} (h : Plain cat q t) :
    (generate q t).map (fun c => c.sql.map (resolve c.args c.g.slices)) =
        (sqlSpec q t).map (SQL.map some) ∧
      ∀ c, generate q t = some c →
        c.args = inputArgs q t ∧ c.g.num = c.args.length ∧ c.g.slices = whereSlices q t :=
  generate_spec h.toBuilt.wf (inWithFields_of_accepted h.checked h.fields) h.keys h.one

theorem Plain.says {cat : Catalog} {q : Query} {t : TargetInfo} {c : Code} (h : Plain cat q t)
    (hc : generate q t = some c) : ∃ s, sqlSpec q t = some s ∧ Says c s := by
  have h1 := h.spec.1
  rw [hc] at h1
  cases hs : sqlSpec q t with
  | none => rw [hs] at h1; cases h1
  | some s =>
    rw [hs] at h1
    exact ⟨s, rfl, Option.some.inj h1⟩

theorem Plain.notSlice {cat : Catalog} {q : Query} {t : TargetInfo} (h : Plain cat q t)
    (hk : q.kind = .insert ∨ q.kind = .update) : q.rel.type.isSlice = false := by
  have := h.one
  simpa [isInsertOrUpdateSlice, isInsertOrUpdate, hk] using this

/-! ### The arguments -/

/-- **C39** The arguments: the written fields that are not set to DEFAULT, the fields of the where struct,
the primary keys that are not written as well, the limit and the offset.  There are as many parameters. -/
theorem C39_arguments {cat : Catalog} {q : Query} {t : TargetInfo} {c : Code} (h : Plain cat q t)
    (hc : generate q t = some c) :
    c.args = writeArgs q t ++ whereArgs q t ++ pkeyArgs q t ++ limitArgs q.limit ++ limitArgs q.offset ∧
    c.g.num = c.args.length := by
  obtain ⟨h1, h2, _⟩ := h.spec.2 c hc
  exact ⟨h1, h2⟩

/-! ### The statements -/

/-- **C39** An insert of one record sets each column to the value of its field. -/
theorem C39_insert {cat : Catalog} {q : Query} {t : TargetInfo} {c : Code} (h : Plain cat q t)
    (hk : q.kind = .insert) (hc : generate q t = some c) :
    Says c
      { stmt := .insert q.rel.id (t.writes.map (·.column.name)) q.override
          (some (t.writes.map (writeSpec q)))
          (t.conflict.map fun x => { target := x.target, update := x.update.map (·.name) })
          (t.reads.map readVal) } := by
  obtain ⟨s, hs, hsay⟩ := h.says hc
  have hn := h.notSlice (.inl hk)
  simp only [sqlSpec, buildStmt, hk, buildInsert, hn, buildConflict, Option.some.injEq] at hs
  rw [← hs] at hsay
  exact hsay

/-- **C39** An update of one record sets each column to the value of its field, in the record with the same
primary key, or in those selected by the where struct; a filter adds its own WHERE clause. -/
theorem C39_update {cat : Catalog} {q : Query} {t : TargetInfo} {c : Code} (h : Plain cat q t)
    (hk : q.kind = .update) (hc : generate q t = some c) :
    ∃ from_ : List (TableExpr GoExpr),
      (q.join = none → from_ = []) ∧
      (∀ j, q.join = some j → ∃ r, j.relation = some r ∧
        from_ = .rel r :: (List.zipWith joinSpec j.directives t.joins).map .join) ∧
    (q.filter = none →
      Says c { stmt := .update q.rel.id (t.writes.map (·.column.name)) (t.writes.map (writeSpec q)) from_
                 (whereSpec q t) (t.reads.map readVal) }) ∧
    (q.filter ≠ none →
      Says c { stmt := .update q.rel.id (t.writes.map (·.column.name)) (t.writes.map (writeSpec q)) from_
                 none []
               tail := if t.reads = [] then .none else .update none none (t.reads.map readVal) }) := by
  obtain ⟨s, hs, hsay⟩ := h.says hc
  have hn := h.notSlice (.inr hk)
  have hsu : q.isSliceUpdate = false := by simp [Query.isSliceUpdate, hn]
  simp only [sqlSpec, buildStmt, hk, buildUpdate, hn, hsu, Option.map_eq_some_iff] at hs
  obtain ⟨fr, hfr, rfl⟩ := hs
  refine ⟨fr, ?_, ?_, ?_, ?_⟩
  · intro hj; simpa [tableExprs, hj] using hfr.symm
  · intro j hj
    simp only [tableExprs, hj, Option.map_eq_some_iff, joinsSpec] at hfr
    obtain ⟨r, hr, rfl⟩ := hfr
    exact ⟨r, hr, rfl⟩
  · intro hf
    simpa [hf, outputVals] using hsay
  · intro hf
    have hf' : q.filter.isSome = true := by cases hx : q.filter <;> simp_all
    have hw : whereSpec q t = none := by
      have := h.toBuilt.shape.filterOnly hf
      simp [whereSpec, this, isUpdateWithPKeys, Query.hasWhere, hf']
    by_cases hr : t.reads = []
    · simpa [hf', hw, hr, outputVals] using hsay
    · have : 0 < t.reads.length := List.length_pos_iff.2 hr
      simpa [hf', hw, hr, outputVals, this] using hsay

/-- **C39** A delete of the records selected by the where struct. -/
theorem C39_delete {cat : Catalog} {q : Query} {t : TargetInfo} {c : Code} (h : Plain cat q t)
    (hk : q.kind = .delete) (hc : generate q t = some c) :
    ∃ using_ : List (TableExpr GoExpr),
      (q.join = none → using_ = []) ∧
      (∀ j, q.join = some j → ∃ r, j.relation = some r ∧
        using_ = .rel r :: (List.zipWith joinSpec j.directives t.joins).map .join) ∧
      Says c { stmt := .delete q.rel.id using_ (whereSpec q t) (t.reads.map readVal) } := by
  obtain ⟨s, hs, hsay⟩ := h.says hc
  simp only [sqlSpec, buildStmt, hk, buildDelete, Option.map_eq_some_iff] at hs
  obtain ⟨fr, hfr, rfl⟩ := hs
  refine ⟨fr, ?_, ?_, hsay⟩
  · intro hj; simpa [tableExprs, hj] using hfr.symm
  · intro j hj
    simp only [tableExprs, hj, Option.map_eq_some_iff, joinsSpec] at hfr
    obtain ⟨r, hr, rfl⟩ := hfr
    exact ⟨r, hr, rfl⟩

/-- The items of an ORDER BY clause. -/
def orderSpec (q : Query) : List OrderBy :=
  match q.orderBy with
  | none => []
  | some l => l.map fun i => ⟨i.colIdent, i.desc, decide (i.nulls = some .first)⟩

theorem buildOrder_eq (q : Query) : buildOrder q = orderSpec q := by
  unfold buildOrder orderSpec
  cases q.orderBy <;> rfl

/-- **C39** A select. -/
theorem C39_select {cat : Catalog} {q : Query} {t : TargetInfo} {c : Code} (h : Plain cat q t)
    (hk : q.kind = .select) (hc : generate q t = some c) :
    Says c { stmt := .select (t.reads.map readVal) q.rel.id (joinsSpec q t) (whereSpec q t) (orderSpec q)
               (limitSpec q) (offsetSpec q) } := by
  obtain ⟨s, hs, hsay⟩ := h.says hc
  simp only [sqlSpec, buildStmt, hk, Option.some.injEq, buildOrder_eq] at hs
  rw [← hs] at hsay
  exact hsay

/-- **C39** A count: there is no LIMIT clause. -/
theorem C39_count {cat : Catalog} {q : Query} {t : TargetInfo} {c : Code} (h : Plain cat q t)
    (hk : q.kind = .selectCount) (hc : generate q t = some c) :
    (q.filter = none →
      Says c { stmt := .count q.rel.id (joinsSpec q t) (whereSpec q t) (orderSpec q) (offsetSpec q) }) ∧
    (q.filter ≠ none → Says c { stmt := .count q.rel.id (joinsSpec q t) none [] .none }) := by
  obtain ⟨s, hs, hsay⟩ := h.says hc
  simp only [sqlSpec, buildStmt, hk, buildCount, Option.some.injEq, buildOrder_eq] at hs
  rw [← hs] at hsay
  constructor <;> intro hf
  · simpa [hf] using hsay
  · simpa [hf] using hsay

/-- **C39** An exists; with a filter the parenthesis is left open. -/
theorem C39_exists {cat : Catalog} {q : Query} {t : TargetInfo} {c : Code} (h : Plain cat q t)
    (hk : q.kind = .selectExists ∨ q.kind = .selectNotExists) (hc : generate q t = some c) :
    (q.filter = none →
      Says c { stmt := .exists_ (decide (q.kind = .selectNotExists)) false q.rel.id (joinsSpec q t)
                 (whereSpec q t) (orderSpec q) (limitSpec q) (offsetSpec q) }) ∧
    (q.filter ≠ none →
      Says c { stmt := .exists_ (decide (q.kind = .selectNotExists)) true q.rel.id (joinsSpec q t)
                 none [] .none .none
               closeFilter := true }) := by
  obtain ⟨s, hs, hsay⟩ := h.says hc
  have : sqlSpec q t = some (buildExists q
      { joins := joinsSpec q t, wher := whereSpec q t, limit := limitSpec q, offset := offsetSpec q }) := by
    rcases hk with hk | hk <;> simp [sqlSpec, buildStmt, hk]
  rw [this, Option.some.injEq] at hs
  rw [← hs] at hsay
  constructor <;> intro hf
  · simpa [hf, buildExists, buildOrder_eq] using hsay
  · simpa [hf, buildExists, buildOrder_eq] using hsay

/-- The tables to be joined are there when they are needed. -/
def joinsHaveRelation (q : Query) : Bool :=
  match q.kind, q.join with
  | .update, some j => j.relation.isSome
  | .delete, some j => j.relation.isSome
  | _, _ => true

/-- **C39** The generator does not panic, unless an update or delete has a join without Relation. -/
theorem C39_no_panic {cat : Catalog} {q : Query} {t : TargetInfo} (h : Plain cat q t) :
    generate q t = none ↔ joinsHaveRelation q = false := by
  have h1 := congrArg Option.isNone h.spec.1
  simp only [Option.isNone_map] at h1
  rw [← Option.isNone_iff_eq_none, h1]
  unfold sqlSpec buildStmt buildUpdate buildDelete tableExprs joinsHaveRelation
  cases q.kind <;> cases q.join <;> simp

/-! ### Values -/

/-- The field of a record: `root.A.B.Name`. -/
def recordField (root : GoExpr) : List Bytes → GoExpr
  | [] => root
  | n :: ns => recordField (.sel root n) ns

theorem fieldSel_eq (root : GoExpr) (f : FieldInfo) :
    fieldSel root f = recordField root (f.selector.map (·.name) ++ [f.name]) := by
  unfold fieldSel
  generalize f.selector = l
  induction l generalizing root with
  | nil => rfl
  | cons a l ih => exact ih (.sel root a.name)

/-- **C39** The argument for a written field is the field of the record, converted if the checker has found
a converter. -/
theorem C39_argument (q : Query) (w : FieldWrite) (hs : q.rel.type.isSlice = false) :
    let f := recordField (.sel (.ident b!"q") q.rel.fieldName) (w.field.selector.map (·.name) ++ [w.field.name])
    (w.valuer = [] → writeArg q w = f) ∧ (w.valuer ≠ [] → writeArg q w = .conv w.valuer f) := by
  have hr : inputRoot q = .sel (.ident b!"q") q.rel.fieldName := by simp [inputRoot, hs, recv]
  constructor
  · intro h; simp only [writeArg, addConv, h, hr, fieldSel_eq]; rfl
  · intro h
    have : w.valuer.length > 0 := List.length_pos_iff.2 h
    simp only [writeArg, addConv, this, if_true, hr, fieldSel_eq]

/-- **C39** What is written to a column: DEFAULT, or its argument and nothing else; NULLIF only replaces
the zero value of the column's type by NULL. -/
theorem C39_written (q : Query) (w : FieldWrite) :
    (canUseDefault q w.field = true → writeSpec q w = .default) ∧
    (canUseDefault q w.field = false →
      (writeSpec q w).slots = [writeArg q w] ∧
      (w.needsNullif = false → writeSpec q w = .param (writeArg q w)) ∧
      (w.needsNullif = true →
        writeSpec q w = .param (writeArg q w) ∨
        ∃ z, writeSpec q w = .cast (.nullif (.param (writeArg q w)) (.lit z)) w.column.type.nameFmt ∧
          (z = b!"''" ∧ w.column.type.oid = Oid.uuid ∨ w.column.type.zeroValue = some z))) := by
  constructor
  · intro h; simp [writeSpec, h]
  · intro h
    refine ⟨?_, ?_, ?_⟩
    · simp only [writeSpec, h]
      cases w.needsNullif <;> simp [VExpr.slots, addNullif_slots]
    · intro hn; simp [writeSpec, h, hn]
    · intro hn
      have e : writeSpec q w = addNullif (.param (writeArg q w)) w.column := by simp [writeSpec, h, hn]
      by_cases hu : w.column.type.oid = Oid.uuid
      · refine .inr ⟨_, ?_, .inl ⟨rfl, hu⟩⟩
        rw [e, addNullif, if_pos hu]; rfl
      · rw [addNullif, if_neg hu] at e
        cases hz : w.column.type.zeroValue with
        | none => rw [hz] at e; exact .inl e
        | some z => rw [hz] at e; exact .inr ⟨z, e, .inr rfl⟩

/-! ### Numbers -/

section
variable {α β : Type} (f : α → β)

theorem VExpr.slots_map (x : VExpr α) : (x.map f).slots = x.slots.map f := by
  induction x <;> simp_all [VExpr.map, VExpr.slots]

mutual
theorem BExpr.slots_map : ∀ x : BExpr α, (x.map f).slots = x.slots.map f
  | .binary _ _ _ => by simp [BExpr.map, BExpr.slots, VExpr.slots_map]
  | .inList _ _ _ => by simp [BExpr.map, BExpr.slots, VExpr.slots_map]
  | .truth _ _ _ => by simp [BExpr.map, BExpr.slots, VExpr.slots_map]
  | .null _ _ => by simp [BExpr.map, BExpr.slots, VExpr.slots_map]
  | .between _ _ _ => by simp [BExpr.map, BExpr.slots, VExpr.slots_map]
  | .bare _ => by simp [BExpr.map, BExpr.slots, VExpr.slots_map]
  | .group l => by rw [BExpr.map, BExpr.slots, BExpr.slots, BList.slots_map l]
theorem BList.slots_map : ∀ x : BList α, (x.map f).slots = x.slots.map f
  | .nil => rfl
  | .cons _ x rest => by
    rw [BList.map, BList.slots, BList.slots, BExpr.slots_map x, BList.slots_map rest, List.map_append]
end

theorem whereSlots_map (w : Option (BList α)) : whereSlots (w.map (BList.map f)) = (whereSlots w).map f := by
  cases w <;> simp [whereSlots, BList.slots_map]

theorem LimitVal.slots_map (x : LimitVal α) : (x.map f).slots = x.slots.map f := by
  cases x <;> rfl

theorem TableExpr.slots_map (x : TableExpr α) : (x.map f).slots = x.slots.map f := by
  cases x <;> simp [TableExpr.map, TableExpr.slots, TableJoin.map, BList.slots_map]

theorem Stmt.slots_map (s : Stmt α) : (s.map f).slots = s.slots.map f := by
  cases s with
  | insert t cs o vs c r =>
    cases vs <;> simp [Stmt.map, Stmt.slots, List.flatMap_map, List.map_flatMap, VExpr.slots_map]
  | _ =>
    simp [Stmt.map, Stmt.slots, List.flatMap_map, List.map_flatMap, VExpr.slots_map, whereSlots_map,
      LimitVal.slots_map, TableExpr.slots_map, TableJoin.map, BList.slots_map]

theorem Tail.slots_map (s : Tail α) : (s.map f).slots = s.slots.map f := by
  cases s <;> simp [Tail.map, Tail.slots, List.flatMap_map, List.map_flatMap, VExpr.slots_map,
    whereSlots_map]

end

/-- The parameters and lists of a statement. -/
def Code.slots (c : Code) : List Slot := c.sql.stmt.slots ++ c.sql.tail.slots

theorem Plain.resolves {cat : Catalog} {q : Query} {t : TargetInfo} {c : Code} (h : Plain cat q t)
    (hc : generate q t = some c) {x : Slot} (hx : x ∈ c.slots) :
    ∃ e, resolve c.args c.g.slices x = some e := by
  obtain ⟨s, _, hsay⟩ := h.says hc
  have h1 : c.slots.map (resolve c.args c.g.slices) = (s.stmt.slots ++ s.tail.slots).map some := by
    have e1 := congrArg (fun z => z.stmt.slots) hsay
    have e2 := congrArg (fun z => z.tail.slots) hsay
    simp only [SQL.map, Stmt.slots_map, Tail.slots_map] at e1 e2
    simp only [Code.slots, List.map_append, e1, e2]
  have : resolve c.args c.g.slices x ∈ (s.stmt.slots ++ s.tail.slots).map some := by
    rw [← h1]; exact List.mem_map_of_mem hx
  obtain ⟨e, _, he⟩ := List.mem_map.1 this
  exact ⟨e, he.symm⟩

/-- **C39** A statement has no parameter without an argument. -/
theorem C39_bound {cat : Catalog} {q : Query} {t : TargetInfo} {c : Code} (h : Plain cat q t)
    (hc : generate q t = some c) (n : Int) (hn : .num n ∈ c.slots) : 1 ≤ n ∧ n ≤ c.args.length := by
  obtain ⟨e, he⟩ := h.resolves hc hn
  simp only [resolve] at he
  by_cases h1 : 1 ≤ n
  · rw [if_pos h1] at he
    have := (List.getElem?_eq_some_iff.1 he).1
    omega
  · rw [if_neg h1] at he; cases he

/-- **C39** A statement has no list without a slice. -/
theorem C39_lists {cat : Catalog} {q : Query} {t : TargetInfo} {c : Code} (h : Plain cat q t)
    (hc : generate q t = some c) (k : Nat) (hn : .slice k ∈ c.slots) : 1 ≤ k ∧ k ≤ c.g.slices.length := by
  obtain ⟨e, he⟩ := h.resolves hc hn
  simp only [resolve] at he
  by_cases h1 : 1 ≤ k
  · rw [if_pos h1] at he
    have := (List.getElem?_eq_some_iff.1 he).1
    omega
  · rw [if_neg h1] at he; cases he

/-- **C39** Every argument is used, except by a count with a limit and by a count or exists with a filter. -/
theorem C39_used {cat : Catalog} {q : Query} {t : TargetInfo} {c : Code} (h : Plain cat q t)
    (hk : keepsAll q) (hc : generate q t = some c) (n : Int) (h1 : 1 ≤ n) (h2 : n ≤ c.args.length) :
    .num n ∈ c.slots := by
  have hb := h.toBuilt
  have := generate_covers hb.wf hb.shape h.one hb.kept (fun hi => (hb.no_writes hi).1) hk hc n (by omega)
    (by rw [(h.spec.2 c hc).2.1]; exact h2)
  exact this

/-! ### Conditions -/

/-- The conditions after the first one, each with its connective: `true` is OR. -/
def chain (sx : GoExpr) : List (Bool × Cond) → BList GoExpr
  | [] => .nil
  | (b, c) :: l => .cons (if b then .or else .and) (condSpec sx c) (chain sx l)

/-- **C39** The conditions of a where struct or of a group are kept in order, each with its connective. -/
theorem C39_connectives (sx : GoExpr) (c : Cond) (l : List (Bool × Cond)) (hc : isBool c = none)
    (hl : ∀ p ∈ l, isBool p.2 = none) :
    condListSpec sx true none (c :: l.flatMap fun p => [.bool p.1, p.2]) =
      .cons .initial (condSpec sx c) (chain sx l) := by
  have rest : ∀ (l : List (Bool × Cond)) (b : Option Bool), (∀ p ∈ l, isBool p.2 = none) →
      condListSpec sx false b (l.flatMap fun p => [.bool p.1, p.2]) = chain sx l := by
    intro l
    induction l with
    | nil => intro b _; simp [condListSpec, chain]
    | cons p l ih =>
      obtain ⟨b', c'⟩ := p
      intro b h
      have h1 : isBool c' = none := h (b', c') (List.mem_cons_self ..)
      have h2 := ih (some b') fun p hp => h p (List.mem_cons_of_mem _ hp)
      simp only [List.flatMap_cons, List.cons_append, List.nil_append]
      rw [condListSpec]
      simp only [isBool]
      rw [condListSpec]
      simp only [h1, h2, addItem, Bool.false_eq_true, if_false]
      rw [chain]
      cases b' <;> rfl
  rw [condListSpec]
  simp only [hc, addItem, if_true]
  rw [rest l none hl]

/-- **C39** A group is put in parentheses; its fields are those of the nested struct. -/
theorem C39_group (sx : GoExpr) (n : Bytes) (items : List Cond) :
    condSpec sx (.nested n items) = .group (condListSpec (.sel sx n) true none items) := by
  rw [condSpec]

/-- **C39** A field of a where struct is compared by the operator of its tag: the column on the left, the
argument on the right. -/
theorem C39_field (sx : GoExpr) (f : FieldConditional) (hf : f.func = []) (hq : f.quant = none)
    (op : BinOp) (hp : predForm f.pred = .binary op) :
    condSpec sx (.field f) = .binary op (.col f.colIdent) (.param (addConv f.valuer (.sel sx f.fieldName))) := by
  simp [condSpec, fieldSpec, hp, formExpr, hf, hq, addCall, addQuant]

/-- **C39** A column compared with a column or a literal, or tested by itself. -/
theorem C39_column (sx : GoExpr) (c : ColumnConditional) (hq : c.quant = none) :
    (∀ op r, predForm c.pred = .binary op → c.rhs = .column r → r ≠ {} →
      condSpec sx (.column c) = .binary op (.col c.lhs) (.col r)) ∧
    (∀ op l, predForm c.pred = .binary op → c.rhs = .literal l → l ≠ [] →
      condSpec sx (.column c) = .binary op (.col c.lhs) (.lit l)) ∧
    (∀ n x, predForm c.pred = .truth n x → condSpec sx (.column c) = .truth n x (.col c.lhs)) ∧
    (∀ n, predForm c.pred = .null n → condSpec sx (.column c) = .null n (.col c.lhs)) := by
  refine ⟨?_, ?_, ?_, ?_⟩
  · intro op r hp hr hne
    simp [condSpec, columnSpec, hp, formExpr, hq, addQuant, rhsExpr, hr, hne]
  · intro op l hp hl hne
    have : 0 < l.length := List.length_pos_iff.2 hne
    simp [condSpec, columnSpec, hp, formExpr, hq, addQuant, rhsExpr, hl, this]
  · intro n x hp
    simp [condSpec, columnSpec, hp, formExpr]
  · intro n hp
    simp [condSpec, columnSpec, hp, formExpr]

/-- **C39** The operator for each predicate that can be written in a tag, other than the ranges (C45). -/
theorem C39_operators :
    [b!"=", b!"<>", b!"!=", b!"<", b!">", b!"<=", b!">=", b!"isdistinct", b!"notdistinct", b!"~", b!"~*",
      b!"!~", b!"!~*", b!"islike", b!"notlike", b!"isilike", b!"notilike", b!"issimilar", b!"notsimilar"].map
        (fun s => predForm (stringToPredicate s)) =
      [.eq, .ne, .ne2, .lt, .gt, .le, .ge, .distinct false, .distinct true, .matches, .matchesCI,
        .notMatches, .notMatchesCI, .like false, .like true, .ilike false, .ilike true, .similar false,
        .similar true].map PForm.binary ∧
    [b!"isin", b!"notin", b!"isnull", b!"notnull", b!"istrue", b!"nottrue", b!"isfalse", b!"notfalse",
      b!"isunknown", b!"notunknown"].map (fun s => predForm (stringToPredicate s)) =
      [.inList false, .inList true, .null false, .null true, .truth false .true, .truth true .true,
        .truth false .false, .truth true .false, .truth false .unknown, .truth true .unknown] := by
  decide +kernel

/-- **C39** The limit and the offset: the argument of a named field, the number of a directive, and 1 for a
single record. -/
theorem C39_limits (q : Query) :
    (∀ l, q.limit = some l → l.name ≠ [] → limitSpec q = .param (.sel (.ident b!"q") l.name)) ∧
    (∀ l, q.limit = some l → l.name = [] → l.value > 0 → limitSpec q = .int l.value) ∧
    (q.limit = none → isSingle q.rel.type = true → limitSpec q = .int 1) ∧
    (q.limit = none → isSingle q.rel.type = false → limitSpec q = .none) ∧
    (∀ l, q.offset = some l → l.name ≠ [] → offsetSpec q = .param (.sel (.ident b!"q") l.name)) ∧
    (∀ l, q.offset = some l → l.name = [] → l.value > 0 → offsetSpec q = .int l.value) ∧
    (q.offset = none → offsetSpec q = .none) := by
  refine ⟨?_, ?_, ?_, ?_, ?_, ?_, ?_⟩
  · intro l h hn
    have : 0 < l.name.length := List.length_pos_iff.2 hn
    simp [limitSpec, h, limitValSpec, this, recv]
  · intro l h hn hv; simp [limitSpec, h, limitValSpec, hn, hv]
  · intro h hs; simp [limitSpec, h, hs]
  · intro h hs; simp [limitSpec, h, hs]
  · intro l h hn
    have : 0 < l.name.length := List.length_pos_iff.2 hn
    simp [offsetSpec, h, limitValSpec, this, recv]
  · intro l h hn hv; simp [offsetSpec, h, limitValSpec, hn, hv]
  · intro h; simp [offsetSpec, h]

/-- **C39** An update without where struct, filter and All selects the record with the same primary key. -/
theorem C39_pkeys {q : Query} {t : TargetInfo} (h : q.kind = .update) (hw : q.hasWhere = false)
    (p : FieldWrite) (ps : List FieldWrite) (ht : t.pkeys = p :: ps) :
    whereSpec q t = some (.cons .initial (.binary .eq (.col p.colIdent) (.param (pkeyExpr q t p)))
      (ps.foldr (fun p l => .cons .and (.binary .eq (.col p.colIdent) (.param (pkeyExpr q t p))) l) .nil)) := by
  have hr : ∀ ps : List FieldWrite, pkeySpec q t false ps =
      ps.foldr (fun p l => .cons .and (.binary .eq (.col p.colIdent) (.param (pkeyExpr q t p))) l) .nil := by
    intro ps
    induction ps with
    | nil => rfl
    | cons a l ih => rw [pkeySpec, ih]; rfl
  simp only [whereSpec, isUpdateWithPKeys, h, hw, ht, pkeySpec, hr]
  rfl

/-- **C39** The value compared with a primary key is the field of the key, or what is written for it. -/
theorem C39_pkey (q : Query) (t : TargetInfo) (p : FieldWrite) :
    (∀ w ∈ t.writes, w.idx ≠ p.idx) ∧ pkeyExpr q t p = fieldSel (inputRoot q) p.field ∨
    ∃ w ∈ t.writes, w.idx = p.idx ∧ pkeyExpr q t p = writeArg q w := by
  unfold pkeyExpr
  cases h : t.writes.find? fun v => decide (v.idx = p.idx) with
  | none =>
    refine .inl ⟨?_, rfl⟩
    intro w hw
    simpa using List.find?_eq_none.1 h w hw
  | some w =>
    refine .inr ⟨w, List.mem_of_find?_eq_some h, ?_, rfl⟩
    simpa using List.find?_some h

end Verif.Generator
