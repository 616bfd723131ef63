import Verif.Generator.PropsDb6

/- C81: examples with slices, and exceptions. -/
namespace Verif.Generator
open Verif.Analysis Verif.Postgres

deriving instance DecidableEq for BExpr, BList
deriving instance DecidableEq for TableJoin
deriving instance DecidableEq for TableExpr
deriving instance DecidableEq for Stmt
deriving instance DecidableEq for Tail
deriving instance DecidableEq for SQL

/-! ### Slices -/

/-- How the database takes values. -/
def asText : Val → Option Bytes
  | .int n => some (Nat.toDigits 10 n.toNat)
  | .data b => some b
  | _ => none

/-- Records with the ids, all with the name `x`. -/
def recordsOf (l : List Nat) : World :=
  { field := fun _ => .nil, records := l.map fun i : Nat => userRec (Int.ofNat i) }

/-- Two users are inserted. -/
theorem C81_example_batch_insert : ∃ q t c args, Batch shopCat q t ∧ generate q t = some c ∧ q.kind = .insert ∧
    sentArgs q (recordsOf [8, 9]) c = some args ∧
    recordText (recordsOf [8, 9]) c b!"VALUES " none =
      some b!"VALUES ($1, NULLIF($2, '')::text),($3, NULLIF($4, '')::text)" ∧
    ∃ T' out, shop.DoesRows (argAt asText args) (batchRows q t 2) shopTables T' out c.meant ∧
      cells (T' users) = cells (shopTables users) ++
        [[some b!"8", some b!"x", some b!"18"], [some b!"9", some b!"x", some b!"18"]] := by
  obtain ⟨q, t, c, hb, hc, hp⟩ := code_of (env := env0) (cat := shopCat) (n := b!"InsertUsers")
    (fs := [relFld (.slice userTy)])
    (P := fun q t c => decide (isInsertOrUpdateSlice q = true ∧ t.writes.length ≠ 0 ∧ q.kind = .insert ∧
      t.conflict.isNone = true ∧ tableOf q.rel.id = users ∧ (recordsOf [8, 9]).records.length * c.args.length ≤ 65535 ∧
      (sentArgs q (recordsOf [8, 9]) c).isSome = true ∧
      recordText (recordsOf [8, 9]) c b!"VALUES " none =
        some b!"VALUES ($1, NULLIF($2, '')::text),($3, NULLIF($4, '')::text)" ∧
      cells ((recordsOf [8, 9]).records.map fun r => shop.recordRow (shop.recordValue asText q r) q t) =
        [[some b!"8", some b!"x", some b!"18"], [some b!"9", some b!"x", some b!"18"]]))
    (by decide +kernel)
  obtain ⟨h1, h2, h3, h4, h5, h6, h7, h8, h9⟩ := of_decide_eq_true hp
  obtain ⟨args, ha⟩ := Option.isSome_iff_exists.1 h7
  have hB : Batch shopCat q t := { toBuilt := hb, slice := h1 }
  have h := (C81_batch_insert_partial shop hB h3 (fun e => h2 (by rw [e]; rfl)) hc (recordsOf [8, 9]) (by decide) h6
    asText args ha).2 shopTables
  rw [Option.isNone_iff_eq_none] at h4
  refine ⟨q, t, c, args, hB, hc, h3, ha, h8, _, _, (h _ _).2 ⟨rfl, rfl⟩, ?_⟩
  rw [h5, h4, ← h9]
  simp [setTable, cells, Server.insertAll, Server.insertOne, recordsOf]

/-- Two of the three users get the name of their records; those without a user change nothing. -/
theorem C81_example_batch_update : ∃ q t c args, Batch shopCat q t ∧ generate q t = some c ∧ q.kind = .update ∧
    sentArgs q (recordsOf [2, 7, 8]) c = some args ∧
    ∃ T' out, shop.DoesRows (argAt asText args) (batchRows q t 3) shopTables T' out c.meant ∧
      cells (T' users) = [[some b!"7", some b!"x", some b!"40"], [some b!"5", some b!"ann", some b!"20"],
        [some b!"2", some b!"x", some b!"30"]] := by
  obtain ⟨q, t, c, hb, hc, hp⟩ := code_of (env := env0) (cat := shopCat) (n := b!"UpdateUsers")
    (fs := [relFld (.slice userTy)])
    (P := fun q t c => decide (isInsertOrUpdateSlice q = true ∧ t.writes.length ≠ 0 ∧ q.kind = .update ∧
      q.join.isNone = true ∧ t.pkeys.length ≠ 0 ∧ (∀ w ∈ t.writes, canUseDefault q w.field = false) ∧
      ((t.writes ++ onlyKeys t).map fun w : FieldWrite => w.column.name).Pairwise (· ≠ ·) ∧ (q.rel.id.alias ≠ [] ∧ q.rel.id.alias ≠ b!"x") ∧
      tableOf q.rel.id = users ∧ (recordsOf [2, 7, 8]).records.length * c.args.length ≤ 65535 ∧
      (sentArgs q (recordsOf [2, 7, 8]) c).isSome = true) && decide (
      shop.sameRecord asText q t (userRow b!"7" (some b!"bob") b!"40") (userRec 7) = true ∧
      shop.sameRecord asText q t (userRow b!"2" none b!"30") (userRec 2) = true ∧
      ([2, 7, 8].all fun i : Nat =>
        !shop.sameRecord asText q t (userRow b!"5" (some b!"ann") b!"20") (userRec (Int.ofNat i))) = true ∧
      cells [shop.recordOver (shop.recordValue asText q (userRec 7)) q t (userRow b!"7" (some b!"bob") b!"40"),
        userRow b!"5" (some b!"ann") b!"20",
        shop.recordOver (shop.recordValue asText q (userRec 2)) q t (userRow b!"2" none b!"30")] =
        [[some b!"7", some b!"x", some b!"40"], [some b!"5", some b!"ann", some b!"20"],
          [some b!"2", some b!"x", some b!"30"]]))
    (by decide +kernel)
  rw [Bool.and_eq_true] at hp
  obtain ⟨h1, h2, h3, h4, h5, h6, h7, h8, h9, h10, h11⟩ := of_decide_eq_true hp.1
  obtain ⟨h12, h13, h14, h15⟩ := of_decide_eq_true hp.2
  obtain ⟨args, ha⟩ := Option.isSome_iff_exists.1 h11
  have hB : Batch shopCat q t := { toBuilt := hb, slice := h1 }
  rw [Option.isNone_iff_eq_none] at h4
  have h := (C81_batch_update_partial shop hB h3 h4 (fun e => h2 (by rw [e]; rfl)) (fun e => h5 (by rw [e]; rfl)) h6 h7 h8
    (fun _ _ _ => rfl) hc (recordsOf [2, 7, 8]) (by decide) h10 asText args ha).2 shopTables
  refine ⟨q, t, c, args, hB, hc, h3, ha, _, _, (h _ _).2 ⟨[(userRow b!"7" (some b!"bob") b!"40", some (userRec 7)),
    (userRow b!"5" (some b!"ann") b!"20", none), (userRow b!"2" none b!"30", some (userRec 2))],
    by rw [h9]; rfl, ?_, rfl, rfl⟩, ?_⟩
  · intro x hx
    simp only [List.mem_cons, List.not_mem_nil, or_false] at hx
    rcases hx with rfl | rfl | rfl
    · exact ⟨by simp [recordsOf], h12⟩
    · intro r hr
      simp only [recordsOf, List.mem_map] at hr
      obtain ⟨i, hi, rfl⟩ := hr
      simpa using List.all_eq_true.1 h14 i hi
    · exact ⟨by simp [recordsOf], h13⟩
  · rw [h9, ← h15]
    simp [setTable]

/-! ### Exceptions -/

/-- **C81** A count with an offset returns nothing: the offset is that of the single row with the number. -/
theorem C81_not_count_offset : ∃ q t c, Plain shopCat q t ∧ AsTold q ∧ generate q t = some c ∧ q.kind = .selectCount ∧
    ∀ T' out, shop.Runs c (shopFields [] []) shopTables T' out → out = [] := by
  obtain ⟨q, t, c, h, hr, hc, hp⟩ := told_case (cat := shopCat) (n := b!"SelectUsers")
    (fs := [usersRel b!"Count" Analysis.intTy, whereOf [ageFld], dirFld b!"Offset" [b!"1"]])
    (P := fun q _ _ => decide (q.kind = .selectCount ∧ q.filter.isNone = true ∧
      (shop.askedOffset (shopFields [] []) q).getD 0 ≠ 0)) (by decide +kernel)
  obtain ⟨h1, h2, h3⟩ := of_decide_eq_true hp
  refine ⟨q, t, c, h, hr, hc, h1, fun T' out hx => ?_⟩
  have := ((C81_count_partial shop h hr h1 (Option.isNone_iff_eq_none.1 h2) hc _ _ _ _).1 hx).2.2
  rwa [if_neg h3] at this

/-- **C81** A count in an order is not carried out. -/
theorem C81_not_count_order : ∃ q t c, Plain shopCat q t ∧ AsTold q ∧ generate q t = some c ∧ q.kind = .selectCount ∧
    ∀ T' out, ¬ shop.Runs c (shopFields [] []) shopTables T' out := by
  obtain ⟨q, t, c, h, hr, hc, hp⟩ := told_case (cat := shopCat) (n := b!"SelectUsers")
    (fs := [usersRel b!"Count" Analysis.intTy, whereOf [ageFld], dirFld b!"OrderBy" [b!"u.id"]])
    (P := fun q _ _ => decide (q.kind = .selectCount ∧ q.filter.isNone = true ∧ (q.orderBy.getD []).length ≠ 0))
    (by decide +kernel)
  obtain ⟨h1, h2, h3⟩ := of_decide_eq_true hp
  refine ⟨q, t, c, h, hr, hc, h1, fun T' out hx => ?_⟩
  have := ((C81_count_partial shop h hr h1 (Option.isNone_iff_eq_none.1 h2) hc _ _ _ _).1 hx).2.1
  exact h3 (by rw [this]; rfl)

/-- The statement for a query struct. -/
def statementOf (n : Bytes) (fs : List Analysis.Field) : Option (SQL Slot × List GoExpr) :=
  (pipeline env0 shopCat n fs).bind fun x => x.2.2.map fun c => (c.sql, c.args)

def ageTy (tag : List Bytes) : Ty := structTy b!"User" [sqlFld b!"Id" [b!"id"] Analysis.intTy, sqlFld b!"Age" tag Analysis.intTy]

/-- **C81** The option `add` of a tag changes nothing: the column is set to the value of the field. -/
theorem C81_not_add : (statementOf b!"UpdateUser" [relFld (.ptr (ageTy [b!"age", b!"add"]))]).isSome = true ∧
    statementOf b!"UpdateUser" [relFld (.ptr (ageTy [b!"age", b!"add"]))] =
      statementOf b!"UpdateUser" [relFld (.ptr (ageTy [b!"age"]))] := by
  constructor <;> decide +kernel

/-- **C81** Nor does the option `nullempty`: the value 0 of a field that says NULL by itself is stored as it
is. -/
theorem C81_not_nullempty :
    (statementOf b!"InsertUser" [relFld (.ptr (namedTy [b!"name", b!"nullempty"] (.ptr strTy)))]).isSome = true ∧
    statementOf b!"InsertUser" [relFld (.ptr (namedTy [b!"name", b!"nullempty"] (.ptr strTy)))] =
      statementOf b!"InsertUser" [relFld (.ptr (namedTy [b!"name"] (.ptr strTy)))] := by
  constructor <;> decide +kernel

/-- The columns that a statement sets. -/
def setColumns : Stmt Slot → List Bytes
  | .insert _ cols _ _ _ _ => cols
  | .update _ cols _ _ _ _ => cols
  | _ => []

/-- **C81** Two fields with the same column are accepted; the statement names the column twice, which is an
error. -/
theorem C81_not_twice : ∃ q t c, Plain shopCat q t ∧ generate q t = some c ∧
    setColumns c.sql.stmt = [b!"name", b!"name"] := by
  obtain ⟨q, t, c, h, _, hc, hp⟩ := told_case (cat := shopCat) (n := b!"InsertUser")
    (fs := [relFld (.ptr (structTy b!"N" [sqlFld b!"A" [b!"name"] strTy, sqlFld b!"B" [b!"name"] strTy]))])
    (P := fun _ _ c => decide (setColumns c.sql.stmt = [b!"name", b!"name"])) (by decide +kernel)
  exact ⟨q, t, c, h, hc, of_decide_eq_true hp⟩

/-- The names of the tables of FROM, and the columns in their conditions. -/
def fromParts : Stmt GoExpr → List (List Bytes × List (BExpr GoExpr))
  | .update _ _ _ from_ _ _ => from_.map fun
    | .rel r => ([r.name, r.alias], [])
    | .join j => ([j.rel.name, j.rel.alias], match j.cond with | .cons _ x _ => [x] | .nil => [])
    | .values => ([], [])
  | _ => []

/-- **C81** The condition of a table joined to the other tables of an update may be about the changed table,
although the statement cannot refer to it there. -/
theorem C81_not_join_target : ∃ q t c, Plain shopCat q t ∧ generate q t = some c ∧ q.rel.id.alias = b!"u" ∧
    fromParts c.meant.stmt = [([b!"posts", b!"p"], []),
      ([b!"posts", b!"o"], [.binary .eq (.col ⟨b!"o", b!"user_id"⟩) (.col ⟨b!"u", b!"id"⟩)])] := by
  obtain ⟨q, t, c, h, _, hc, hp⟩ := told_case (cat := shopCat) (n := b!"UpdateUser")
    (fs := [relFld (.ptr userTy), ({ name := b!"From" }, .struct (.ofList [dirFld b!"Relation" [b!"posts:p"],
      dirFld b!"LeftJoin" [b!"posts:o", b!"o.user_id = u.id"]])), whereOf [sqlFld b!"Id" [b!"u.id"] Analysis.intTy]])
    (P := fun q _ c => decide (q.rel.id.alias = b!"u" ∧ fromParts c.meant.stmt = [([b!"posts", b!"p"], []),
      ([b!"posts", b!"o"], [.binary .eq (.col ⟨b!"o", b!"user_id"⟩) (.col ⟨b!"u", b!"id"⟩)])])) (by decide +kernel)
  exact ⟨q, t, c, h, hc, of_decide_eq_true hp⟩

/-- The name of the changed table, and the columns of the condition with those of `x`. -/
def batchKey (c : Code) : Option (List Bytes) :=
  match c.sql.stmt, c.sql.tail with
  | .update r _ _ [.values] _ _, .update _ (some (.cons _ (.binary .eq (.col k) (.cast (.xcol n) _)) .nil)) _ =>
    some [r.name, r.alias, k.qualifier, k.name, n]
  | .update r _ _ [.values] _ _, .update _ (some (.cons _ (.binary .eq (.col k) (.xcol n)) .nil)) _ =>
    some [r.name, r.alias, k.qualifier, k.name, n]
  | _, _ => none

/-- **C81** An update with a slice of a table called `x` is accepted, although that is what the statement
calls the records: `UPDATE users AS x .. FROM (VALUES ..) AS x .. WHERE x.id = x.id`. -/
theorem C81_not_alias : ∃ q t c, Batch shopCat q t ∧ generate q t = some c ∧
    batchKey c = some [b!"users", b!"x", b!"x", b!"id", b!"id"] := by
  obtain ⟨q, t, c, hb, hc, hp⟩ := code_of (env := env0) (cat := shopCat) (n := b!"UpdateUsers")
    (fs := [({ name := b!"Users", tag := [(b!"rel", [b!"users:x"])] }, .slice userTy)])
    (P := fun q _ c => decide (isInsertOrUpdateSlice q = true ∧
      batchKey c = some [b!"users", b!"x", b!"x", b!"id", b!"id"])) (by decide +kernel)
  obtain ⟨h1, h2⟩ := of_decide_eq_true hp
  exact ⟨q, t, c, { toBuilt := hb, slice := h1 }, hc, h2⟩

/-- **C81** Without alias the column of the key is not qualified, and could be that of the table or of the
records: `UPDATE users .. FROM (VALUES ..) AS x .. WHERE id = x.id`. -/
theorem C81_not_unqualified : ∃ q t c, Batch shopCat q t ∧ generate q t = some c ∧
    batchKey c = some [b!"users", [], [], b!"id", b!"id"] := by
  obtain ⟨q, t, c, hb, hc, hp⟩ := code_of (env := env0) (cat := shopCat) (n := b!"UpdateUsers")
    (fs := [({ name := b!"Users", tag := [(b!"rel", [b!"users"])] }, .slice userTy)])
    (P := fun q _ c => decide (isInsertOrUpdateSlice q = true ∧
      batchKey c = some [b!"users", [], [], b!"id", b!"id"])) (by decide +kernel)
  obtain ⟨h1, h2⟩ := of_decide_eq_true hp
  exact ⟨q, t, c, { toBuilt := hb, slice := h1 }, hc, h2⟩

end Verif.Generator
