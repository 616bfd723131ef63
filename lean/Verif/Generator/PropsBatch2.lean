import Verif.Generator.PropsBatch

/- C41: the static part of the statements, too many records, examples and exceptions. -/
namespace Verif.Generator
open Verif.Analysis Verif.Postgres

/-! ### The statements -/

/-- **C41** A slice is inserted into the columns of the written fields, which are those of the rows. -/
theorem C41_insert {cat : Catalog} {q : Query} {t : TargetInfo} {c : Code} (h : Batch cat q t)
    (hk : q.kind = .insert) (hc : generate q t = some c) :
    c.sql.stmt = .insert q.rel.id (t.writes.map (·.column.name)) q.override none none [] ∧
    c.sql.tail = (if t.reads = [] ∧ t.conflict = none then .none else
      .insert (t.conflict.map fun x => { target := x.target, update := x.update.map (·.name) })
        (t.reads.map readVal)) ∧
    batchCells q t = t.writes.map (writeCell q) := by
  obtain ⟨_, _, _, _, _, _, hst, _⟩ := generate_split hc
  have hs := h.kind.1
  simp only [buildStmt, hk, buildInsert, hs, if_true, buildConflict, ne_eq, not_true, if_false,
    Option.some.injEq] at hst
  rw [← hst]
  refine ⟨?_, ?_, by simp [batchCells, hk]⟩
  all_goals
    by_cases hcond : t.reads = [] ∧ t.conflict = none
    · obtain ⟨h1, h2⟩ := hcond
      simp [outputVals, h1, h2]
    · have : (outputVals (α := Slot) t).length > 0 ∨ (t.conflict.map fun c =>
          ({ target := c.target, update := c.update.map (·.name) } : ConflictClause)).isSome = true := by
        by_cases h1 : t.reads = []
        · right
          cases hx : t.conflict with
          | none => exact absurd ⟨h1, hx⟩ hcond
          | some x => rfl
        · left
          rw [outputVals, List.length_map]
          exact List.length_pos_iff.2 h1
      rw [if_pos this]
      try rw [if_neg hcond]
      try rfl

/-- The records of the table with the same primary key as the row `x`. -/
def sameKey (first : Bool) : List FieldWrite → BList Slot
  | [] => .nil
  | p :: ps =>
    .cons (if first then .initial else .and)
      (.binary .eq (.col p.colIdent) (.cast (.xcol p.colIdent.name) p.column.type.nameFmt)) (sameKey false ps)

theorem pkeyConds_slice (ps : List FieldWrite) : ∀ (g : G) (first : Bool),
    (pkeyConds true g first ps).1 = sameKey first ps := by
  induction ps with
  | nil => intro _ _; rfl
  | cons p ps ih =>
    intro g first
    simp only [pkeyConds, sameKey, ih, if_true]

/-- **C41** A slice is used to update from the rows `x`, whose columns are named in the order of the cells:
each written column is set to that of `x`, in the record with the same primary key. -/
theorem C41_update {cat : Catalog} {q : Query} {t : TargetInfo} {c : Code} (h : Batch cat q t)
    (hk : q.kind = .update) (hj : q.join = none) (hd : ∀ w ∈ t.writes, canUseDefault q w.field = false)
    (hc : generate q t = some c) :
    c.sql.stmt = .update q.rel.id (t.writes.map (·.column.name)) (t.writes.map fun w => .xcol w.column.name)
      [.values] none [] ∧
    c.sql.tail = .update (some ((t.writes ++ onlyKeys t).map (·.column.name)))
      (some (sameKey true t.pkeys)) [] ∧
    (batchCells q t).length = (t.writes ++ onlyKeys t).length := by
  obtain ⟨js, g1, w, g2, _, hw, hst, _⟩ := generate_split hc
  obtain ⟨h1, h2, h3⟩ := h.rows
  have hs := h.kind.1
  have hp : isUpdateWithPKeys q = true := by simp [isUpdateWithPKeys, hk, Query.hasWhere, h1, h2, h3]
  have hu : q.isSliceUpdate = true := by simp [Query.isSliceUpdate, hk, hs]
  simp only [buildWhere, hp, if_true, hs, Option.some.injEq, Prod.mk.injEq] at hw
  obtain ⟨rfl, rfl⟩ := hw
  have hf : t.writes.filter (fun w => !canUseDefault q w.field) = t.writes := by
    rw [List.filter_eq_self]
    intro w hw
    simp [hd w hw]
  simp only [buildStmt, hk, buildUpdate, hs, if_true, hu, tableExprs, hj, Option.map_some, List.nil_append,
    updateCols, hf, Option.some.injEq, pkeyConds_slice] at hst
  rw [← hst]
  refine ⟨rfl, ?_, ?_⟩
  · simp [onlyKeys_eq]
  · simp [batchCells, hk]

theorem pkeys_ok {cat : Catalog} {q : Query} {ti : TargetInfo} (h : checkQuery cat q = .ok ti) :
    ∀ p ∈ ti.pkeys, q.rel.type.fields[p.idx]? = some p.field ∧ p.column.isPrimary = true ∧
      p.colIdent = { qualifier := q.rel.id.alias, name := p.field.colIdent.name } ∧
      ∃ rel, loadRelation cat q.rel.id = .ok rel ∧
        rel.columns.find? (fun c => c.name = p.field.colIdent.name) = some p.column := by
  obtain ⟨c, hc, r1, r2, rw', _, _, hrel, _, _, hw, _⟩ := checkQuery_ok h
  by_cases hq : Writing q
  · obtain ⟨l, hl, _, he, _⟩ := checkRel_writing hq hrel
    rw [hw, he]
    intro p hm
    rw [List.mem_flatten] at hm
    obtain ⟨ws, hws, hm⟩ := hm
    rw [List.mem_map] at hws
    obtain ⟨y, hy, rfl⟩ := hws
    obtain ⟨x, hx, hxy⟩ := hl.mem_right _ hy
    rcases checkRelWrite_ok hxy with ⟨_, _, rfl⟩ | ⟨w', hw', rfl⟩
    · cases hm
    · simp only at hm
      split at hm
      · rename_i hprim
        simp only [List.mem_singleton] at hm
        subst hm
        obtain ⟨h1, h2, h3, h4⟩ := checkWrite_ok hw'
        refine ⟨?_, hprim, ?_, c.rel, hc.rel, ?_⟩
        · rw [h1, h2]; exact List.mem_zipIdx_iff_getElem?.1 hx
        · rw [h4, h2, hc.rid]
        · rw [h2]; exact h3
      · cases hm
  · rw [hw, checkRel_not_writing hq hrel]
    intro p hp; cases hp

/-- **C41** The primary keys are columns of the table that the record has, and are among the columns of
`x`. -/
theorem C41_keys {cat : Catalog} {q : Query} {t : TargetInfo} (h : Batch cat q t) :
    ∀ p ∈ t.pkeys, p.column.isPrimary = true ∧ p.column.name = p.colIdent.name ∧
      p.colIdent.name ∈ (t.writes ++ onlyKeys t).map (·.column.name) := by
  intro p hp
  obtain ⟨h1, h2, h3, rel, h4, h5⟩ := pkeys_ok h.checked p hp
  have hname : p.column.name = p.colIdent.name := by
    have := List.find?_some h5
    rw [h3]
    simpa using this
  refine ⟨h2, hname, ?_⟩
  rw [List.mem_map]
  by_cases hm : p.idx ∈ t.writes.map (·.idx)
  · rw [List.mem_map] at hm
    obtain ⟨w, hw, he⟩ := hm
    obtain ⟨g1, _, _, rel', g4, g5⟩ := (C49_writes h.checked).1 w hw
    refine ⟨w, List.mem_append_left _ hw, ?_⟩
    rw [he, h1] at g1
    have := List.find?_some g5
    rw [h3, Option.some.inj g1]
    simpa using this
  · refine ⟨p, List.mem_append_right _ ?_, hname⟩
    unfold onlyKeys
    rw [List.mem_filter]
    exact ⟨hp, by simpa using hm⟩

/-! ### Too many records -/

theorem rowCells_none {vs : List (VExpr Slot)} {cs : List Cell} (h : AllMatch vs cs) :
    ∀ (pos i dc : Nat), dc ≤ i → pos + (i - dc) ≤ 65535 →
      65535 < pos + (i - dc) + cs.countP Cell.isValue → rowCells pos i dc vs = none := by
  induction h with
  | nil => intro pos i dc _ h1 h2; rw [List.countP_nil] at h2; omega
  | @cons v c vs cs hm _ ih =>
    intro pos i dc hd h1 h2
    rw [rowCells]
    rw [List.countP_cons] at h2
    cases c with
    | default =>
      have hdef : isDefault v = true := hm
      simp only [Cell.isValue, Bool.false_eq_true, if_false] at h2
      rw [if_pos hdef, ih pos (i + 1) (dc + 1) (by omega) (by omega) (by omega)]
      rfl
    | value pre post a =>
      obtain ⟨hdef, hfr⟩ := hm
      simp only [Cell.isValue, if_true] at h2
      rw [if_neg (by simp [hdef])]
      rw [show ((pos : Int) + ((i : Int) - dc)) = ((pos + (i - dc) : Nat) : Int) by omega]
      by_cases hx : pos + (i - dc) < 65535
      · rw [ordinalAtInt_ok _ hx, Option.bind_some, ih pos (i + 1) dc (by omega) (by omega) (by omega)]
        rfl
      · rw [ordinalAtInt_none _ (by omega)]
        rfl

theorem recordRows_none {c : Code} {cs : List Cell} (h : AllMatch c.rowVals cs)
    (hk : c.args.length = cs.countP Cell.isValue) :
    ∀ (n i : Nat), i * c.args.length ≤ 65535 → 65535 < (i + n) * c.args.length →
      recordRows c i n = none := by
  intro n
  induction n with
  | zero => intro i h1 h2; simp at h2; omega
  | succ n ih =>
    intro i h1 h2
    rw [recordRows]
    by_cases hx : (i + 1) * c.args.length ≤ 65535
    · rw [ih (i + 1) hx (by rw [show i + 1 + n = i + (n + 1) by omega]; exact h2)]
      cases rowCells (i * c.args.length) 0 0 c.rowVals <;> rfl
    · rw [rowCells_none h _ _ _ (Nat.le_refl _) (by simpa using h1) (by
        rw [← hk]; rw [Nat.succ_mul] at hx; omega)]
      rfl

/-- **C41** More than 65535 values make the method panic. -/
theorem C41_too_many {cat : Catalog} {q : Query} {t : TargetInfo} {c : Code} (h : Batch cat q t)
    (hw : t.writes ≠ []) (hc : generate q t = some c) (w : World)
    (hmax : 65535 < w.records.length * c.args.length) (main : Bytes) (tail : Option Bytes) :
    recordText w c main tail = none := by
  have hm := batch_matches h hw hc
  have hk : c.args.length = (batchCells q t).countP Cell.isValue := by
    rw [countP_value, ← C41_record_arguments h hc]
  rw [recordText, recordRows_none hm hk _ 0 (by omega) (by rw [Nat.zero_add]; exact hmax)]
  rfl

/-! ### Examples and exceptions -/

/-- The n-th record of users: Id is n, the rest is `x`. -/
def userRec (n : Int) : GoExpr → Val := fun e =>
  if e = .sel (.ident b!"v") b!"Id" then .int n else .data b!"x"

def batchWorld (n : Nat) : World :=
  { field := fun _ => .nil, records := (List.range n).map fun i : Nat => userRec (Int.ofNat i) }

/-- Two records inserted with DEFAULT for the id. -/
theorem C41_example : ∃ q t c, Batch shopCat q t ∧ t.writes ≠ [] ∧ generate q t = some c ∧
    recordText (batchWorld 2) c b!"INSERT INTO .. VALUES " (some b!"RETURNING u.id") =
      some (b!"INSERT INTO .. VALUES (DEFAULT, NULLIF($1, '')::text)," ++
        b!"(DEFAULT, NULLIF($2, '')::text) RETURNING u.id") ∧
    sentArgs q (batchWorld 2) c = some [.data b!"x", .data b!"x"] := by
  obtain ⟨q, t, c, hb, hc, hp⟩ := code_of (env := env0) (cat := shopCat) (n := b!"InsertUsers")
    (fs := [relFld (.slice userTy), dirFld b!"Default" [b!"id"]])
    (P := fun q t c => decide (isInsertOrUpdateSlice q = true ∧ t.writes.length ≠ 0 ∧
      recordText (batchWorld 2) c b!"INSERT INTO .. VALUES " (some b!"RETURNING u.id") =
        some (b!"INSERT INTO .. VALUES (DEFAULT, NULLIF($1, '')::text)," ++
          b!"(DEFAULT, NULLIF($2, '')::text) RETURNING u.id") ∧
      sentArgs q (batchWorld 2) c = some [.data b!"x", .data b!"x"]))
    (by decide +kernel)
  obtain ⟨h1, h2, h3⟩ := of_decide_eq_true hp
  exact ⟨q, t, c, { toBuilt := hb, slice := h1 }, fun e => h2 (by rw [e]; rfl), hc, h3⟩

/-- The columns of an update: those that are set, the number of values they are set to, and those of `x`. -/
def updateShape (c : Code) : List Bytes × Nat × Option (List Bytes) :=
  match c.sql.stmt, c.sql.tail with
  | .update _ cols vs _ _ _, .update a _ _ => (cols, vs.length, a)
  | _, _ => ([], 0, none)

/-- Two records updated. -/
theorem C41_example_update : ∃ q t c, Batch shopCat q t ∧ t.writes ≠ [] ∧ generate q t = some c ∧
    (∀ w ∈ t.writes, canUseDefault q w.field = false) ∧
    updateShape c = ([b!"id", b!"name"], 2, some [b!"id", b!"name"]) ∧
    recordText (batchWorld 2) c b!"VALUES " none =
      some b!"VALUES ($1::integer, NULLIF($2, '')::text),($3::integer, NULLIF($4, '')::text)" ∧
    sentArgs q (batchWorld 2) c = some [.int 0, .data b!"x", .int 1, .data b!"x"] := by
  obtain ⟨q, t, c, hb, hc, hp⟩ := code_of (env := env0) (cat := shopCat) (n := b!"UpdateUsers")
    (fs := [relFld (.slice userTy)])
    (P := fun q t c => decide (isInsertOrUpdateSlice q = true ∧ t.writes.length ≠ 0 ∧
      (∀ w ∈ t.writes, canUseDefault q w.field = false) ∧
      updateShape c = ([b!"id", b!"name"], 2, some [b!"id", b!"name"]) ∧
      recordText (batchWorld 2) c b!"VALUES " none =
        some b!"VALUES ($1::integer, NULLIF($2, '')::text),($3::integer, NULLIF($4, '')::text)" ∧
      sentArgs q (batchWorld 2) c = some [.int 0, .data b!"x", .int 1, .data b!"x"]))
    (by decide +kernel)
  obtain ⟨h1, h2, h3⟩ := of_decide_eq_true hp
  exact ⟨q, t, c, { toBuilt := hb, slice := h1 }, fun e => h2 (by rw [e]; rfl), hc, h3⟩

/-- **C41** Without records the last character of the static statement is lost, and what follows the rows
is appended to that. -/
theorem C41_not_empty (w : World) (c : Code) (main : Bytes) (x : Char) (tail : Bytes)
    (h : w.records = []) :
    recordText w c (main ++ [x]) none = some main ∧
    recordText w c (main ++ [x]) (some tail) = some (main ++ b!" " ++ tail) := by
  have : recordRows c 0 w.records.length = some [] := by rw [h]; rfl
  constructor <;> simp [recordText, this]

/-- **C41** An update that sets a column to DEFAULT has fewer values than columns. -/
theorem C41_not_update_default : ∃ q t c, Batch shopCat q t ∧ generate q t = some c ∧
    updateShape c = ([b!"id", b!"name"], 1, some [b!"id", b!"name"]) := by
  obtain ⟨q, t, c, hb, hc, hp⟩ := code_of (env := env0) (cat := shopCat) (n := b!"UpdateUsers")
    (fs := [relFld (.slice userTy), dirFld b!"Default" [b!"id"]])
    (P := fun q _ c => decide (isInsertOrUpdateSlice q = true ∧
      updateShape c = ([b!"id", b!"name"], 1, some [b!"id", b!"name"])))
    (by decide +kernel)
  obtain ⟨h1, h2⟩ := of_decide_eq_true hp
  exact ⟨q, t, c, { toBuilt := hb, slice := h1 }, hc, h2⟩

/-- `type User struct { Id int "sql:id,ro" }`. -/
def readOnlyTy : Ty :=
  .named { name := b!"User", pkg := some { path := b!"p", name := b!"p" } }
    (.struct (.ofList [({ name := b!"Id", tag := [(b!"sql", [b!"id", b!"ro"])] }, Analysis.intTy)]))

/-- **C41** If no field is written the rows are only closing parentheses. -/
theorem C41_not_without_columns : ∃ q t c, Batch shopCat q t ∧ generate q t = some c ∧
    recordText (batchWorld 2) c b!"VALUES " none = some b!"VALUES ),)" := by
  obtain ⟨q, t, c, hb, hc, hp⟩ := code_of (env := env0) (cat := shopCat) (n := b!"InsertUsers")
    (fs := [relFld (.slice readOnlyTy)])
    (P := fun q _ c => decide (isInsertOrUpdateSlice q = true ∧
      recordText (batchWorld 2) c b!"VALUES " none = some b!"VALUES ),)"))
    (by decide +kernel)
  obtain ⟨h1, h2⟩ := of_decide_eq_true hp
  exact ⟨q, t, c, { toBuilt := hb, slice := h1 }, hc, h2⟩

end Verif.Generator
