import Verif.Generator.PropsTreeDb5
import Verif.Generator.PropsGram10

/- Property C95: what statements for a slice of records do to the tables. -/
namespace Verif.Generator.Gram
open Verif.Analysis Verif.Postgres Verif.Generator.Lex Print

/-- A query for a slice of records is accepted, its method is called with records and sends `args`; the texts are such
that PostgreSQL reads the statement that is meant. -/
structure SentRows {V : Type} (S : TServer V) (cat : Catalog) (q : Query) (t : TargetInfo) (c : Code) (w : World)
    (args : List Val) : Prop where
  batch : Batch cat q t
  accepted : ∃ env cache n fs s, CacheNamed cache ∧ analyzeQuery env cache n fs = .ok s ∧ s.q = q
  code : generate q t = some c
  catalog : CatPlain cat
  texts : ∀ x ∈ queryTexts q, Whole x
  infos : InfoFits q t
  filled : Filled w c
  records : w.records ≠ []
  sends : sentArgs q w c = some args
  max : w.records.length * c.args.length ≤ 65535
  rel : lower q.rel.id.qualifier = q.rel.id.qualifier ∧ lower q.rel.id.alias = q.rel.id.alias
  reads : ∀ p ∈ (t.reads.map (readVal (α := Slot))).flatMap valParts, p.Plain
  excluded : t.conflict.isSome = true → knownAs q.rel.id ≠ b!"excluded"
  casts : q.kind = .update → ∀ w ∈ t.writes ++ t.pkeys, ∀ v, S.cast (lex w.column.type.nameFmt) v = v

section
variable {V : Type} [DecidableEq V] {S : TServer V} {sent : Val → Option V} {cat : Catalog} {q : Query} {t : TargetInfo}
  {c : Code} {w : World} {args : List Val}

theorem number_cells (hfit : ∀ w ∈ t.writes, WriteFits w)
    (hcast : q.kind = .update → ∀ w ∈ t.writes, ∀ v, S.cast (lex w.column.type.nameFmt) v = v) :
    ∀ (xs : List (VExpr GoExpr)) (p : Nat), (∀ x ∈ xs, (∃ w ∈ t.writes, x = rowVal q w) ∨ ∃ a, x = .param a) →
      ((number p xs).map (valTree ordinal)).map (S.cell (args.map sent) []) =
        (number p xs).map (S.server.cellAt (argAt sent args))
  | [], _, _ => rfl
  | x :: xs, p, h => by
    rw [number, List.map_cons, List.map_cons, List.map_cons, number_cells hfit hcast xs _ fun y hy => h y (by simp [hy])]
    congr 1
    rcases h x (by simp) with ⟨w, hw, rfl⟩ | ⟨a, rfl⟩
    · exact row_cell w (hfit w hw) p fun hk => hcast hk w hw
    · have hex : atomEx (lex (ordinal (p + 1))) = .const (.param (itoa (p + 1))) := by
        rw [show lex (ordinal (p + 1)) = [.param (itoa (p + 1))] from (reads_ordinal _).lex]
        rfl
      simp only [VExpr.map, valTree, TServer.cell, Server.cellAt, TServer.value, SqlWorld.val, ← arg_value, hex,
        numbered_val]
      rw [if_neg (by simp)]

theorem number_default (hd : ∀ w ∈ t.writes, canUseDefault q w.field = false) : ∀ (xs : List (VExpr GoExpr)) (p : Nat),
    (∀ x ∈ xs, (∃ w ∈ t.writes, x = rowVal q w) ∨ ∃ a, x = .param a) →
      Ex.const (.word b!"default") ∉ (number p xs).map (valTree ordinal)
  | [], _, _ => by simp [number]
  | x :: xs, p, h => by
    rw [number, List.map_cons, List.mem_cons]
    rintro (he | he)
    · have hex : atomEx (lex (ordinal (p + 1))) = .const (.param (itoa (p + 1))) := by
        rw [show lex (ordinal (p + 1)) = [.param (itoa (p + 1))] from (reads_ordinal _).lex]
        rfl
      rcases h x (by simp) with ⟨w, hw, rfl⟩ | ⟨a, rfl⟩
      · unfold rowVal at he
        rw [if_neg (by simp [hd w hw])] at he
        split at he
        · simp [VExpr.map, valTree] at he
        · split at he
          · simp [VExpr.map, valTree] at he
          · simp [VExpr.map, valTree, hex] at he
      · simp [VExpr.map, valTree, hex] at he
    · exact number_default hd xs _ (fun y hy => h y (by simp [hy])) he

theorem rowExprs_mem : ∀ x ∈ rowExprs q t, (∃ w ∈ t.writes, x = rowVal q w) ∨ ∃ a, x = .param a := by
  intro x hx
  unfold rowExprs at hx
  rcases List.mem_append.1 hx with hx | hx
  · obtain ⟨w, hw, rfl⟩ := List.mem_map.1 hx
    exact .inl ⟨w, hw, rfl⟩
  · split at hx
    · obtain ⟨w, hw, rfl⟩ := List.mem_map.1 hx
      exact .inr ⟨_, rfl⟩
    · cases hx

namespace SentRows

variable (h : SentRows S cat q t c w args)
include h

omit [DecidableEq V] in
theorem writes : t.writes ≠ [] := by
  rcases h.batch.kind.2 with hk | hk
  · exact h.infos.inserts hk
  · have := h.infos.updates hk
    rintro he
    rw [he] at this
    simp at this

/-- The values of the rows that are parsed. -/
theorem rows (n : Nat) :
    (rowsTree c.rowVals c.args.length n).map (fun vs => vs.map (S.cell (args.map sent) [])) =
      (batchRows q t n).map fun row => row.map (S.server.cellAt (argAt sent args)) := by
  rw [rowsTree_eq h.batch h.writes h.code, List.map_map]
  unfold batchRows
  rw [List.map_map, List.map_map]
  refine List.map_congr_left fun i _ => ?_
  exact number_cells h.infos.writes (fun hk w hw => h.casts hk w (List.mem_append_left _ hw)) _ _ rowExprs_mem

omit [DecidableEq V] in
/-- The statement is parsed. -/
theorem parsed : ∃ tree, rowedTree (fun a => (Generator.slotText w c a).getD []) c.rowVals c.args.length w.records.length
      c.sql.stmt c.sql.tail = some tree ∧ parse (lex (recordsText w c)) = some tree := by
  obtain ⟨env, cache, n, fs, s, hc, ha, rfl⟩ := h.accepted
  have hx := C41_text h.batch h.writes h.code w h.records h.max
    (stmtText (fun a => (Generator.slotText w c a).getD []) c.sql.stmt)
    (tailText (fun a => (Generator.slotText w c a).getD []) c.sql.tail)
  have := C89_records w hc ha h.batch.checked h.code h.catalog h.texts h.infos h.batch.slice h.filled h.records hx
  unfold recordsText
  simp only [hx, Option.getD_some]
  exact this

end SentRows

/-- **C95** An insert of a slice of records that is sent adds the rows of the records, one after the other, or does what
OnConflict says, and returns the rows. -/
theorem C95_insert_many (h : SentRows S cat q t c w args) (hk : q.kind = .insert) :
    ∃ tree, parse (lex (recordsText w c)) = some tree ∧ ∀ T T' out, S.Does (args.map sent) T T' out tree ↔
      let new := w.records.map fun r => S.server.recordRow (S.server.recordValue sent q r) q t
      let r := S.server.insertAll (tableOf q.rel.id)
        (t.conflict.map fun x => { target := x.target, update := x.update.map (·.name) }) new (T (tableOf q.rel.id))
      T' = setTable T (tableOf q.rel.id) r.1 ∧
        out = r.2.map fun x => t.reads.map (S.server.readField [(q.rel.id, x)]) := by
  obtain ⟨tree, h1, h2⟩ := h.parsed
  refine ⟨tree, h2, fun T T' out => ?_⟩
  refine Iff.trans ?_ ((C81_batch_insert_partial S.server h.batch hk h.writes h.code w h.records h.max sent args h.sends).2 T T' out)
  obtain ⟨e1, e2, _⟩ := C41_insert h.batch hk h.code
  have hgr := generate_rowed kinds_num kinds_slice h.infos h.batch.slice h.code
  have m1 : c.meant.stmt = .insert q.rel.id (t.writes.map (·.column.name)) q.override none none [] := by
    simp [Code.meant, SQL.map, e1, Stmt.map]
  have m2 : c.meant.tail.conflict = (t.conflict.map fun x => { target := x.target, update := x.update.map (·.name) }) ∧
      c.meant.tail.returning = t.reads.map readVal := by
    simp only [Code.meant, SQL.map, e2]
    split
    · rename_i hx
      simp [hx, Tail.map, Tail.conflict, Tail.returning]
    · refine ⟨rfl, ?_⟩
      simp only [Tail.map, Tail.returning, List.map_map]
      exact List.map_congr_left fun r _ => map_readVal _ r
  have htree : tree = insertTree (fun a => (Generator.slotText w c a).getD []) q.rel.id (t.writes.map (·.column.name)) q.override
      (rowsTree c.rowVals c.args.length w.records.length)
      (t.conflict.map fun x => { target := x.target, update := x.update.map (·.name) }) (t.reads.map readVal) := by
    rw [e1, e2] at h1
    split at h1
    · next hx =>
      simp only [rowedTree, Option.some.injEq] at h1
      rw [← h1, hx.1, hx.2]
      rfl
    · simp only [rowedTree, Option.some.injEq] at h1
      exact h1.symm
  have hname : nameOf (relTree q.rel.id) = q.rel.id := nameOf_rel h.rel.1 h.rel.2
  have hreads : ∀ j, S.output (args.map sent) j ((t.reads.map (readVal (α := Slot))).map
      (valTree fun a => (Generator.slotText w c a).getD [])) = S.server.output (fun _ => none) j (t.reads.map readVal) := by
    intro j
    have hslots : ∀ a, a ∉ (t.reads.map (readVal (α := Slot))).flatMap VExpr.slots := by
      intro a ha
      obtain ⟨x, hx, ha⟩ := List.mem_flatMap.1 ha
      obtain ⟨r, _, rfl⟩ := List.mem_map.1 hx
      have : (readVal (α := Slot) r).slots = [] := by
        unfold readVal addCoalesce
        split
        · split
          · rfl
          · split
            · rfl
            · split <;> rfl
        · rfl
      rw [this] at ha
      cases ha
    have hvg : ValsGram kinds (t.reads.map (readVal (α := Slot))) := by
      rw [e1, e2] at hgr
      split at hgr
      · next hx =>
        rw [hx.1]
        intro v hv
        cases hv
      · exact hgr.2.2.2
    have := output_of (S := S) (ps := args.map sent) (field := fun _ => none) (g := slotExpr c)
      (f := fun a => (Generator.slotText w c a).getD []) j (l := t.reads.map readVal)
      (fun x hx => by
        obtain ⟨r, _, rfl⟩ := List.mem_map.1 hx
        exact basic_read r) hvg (fun a ha => absurd ha (hslots a)) h.reads
    rw [this, List.map_map]
    congr 1
    exact List.map_congr_left fun r _ => map_readVal _ r
  have hrows := h.rows (sent := sent) w.records.length
  have hnew : (rowsTree c.rowVals c.args.length w.records.length).map (fun vs => S.server.newRow (tableOf q.rel.id)
      (t.writes.map (·.column.name)) (vs.map (S.cell (args.map sent) []))) =
      (batchRows q t w.records.length).map fun row => S.server.newRow (tableOf q.rel.id) (t.writes.map (·.column.name))
        (row.map (S.server.cellAt (argAt sent args))) := by
    have := congrArg (List.map (S.server.newRow (tableOf q.rel.id) (t.writes.map (·.column.name)))) hrows
    rwa [List.map_map, List.map_map] at this
  rw [htree]
  unfold Server.DoesRows
  rw [m1]
  simp only [insertTree, TServer.Does, hname, m2.1, m2.2, hreads]
  simp only [ident, List.map_map, Function.comp_def]
  rw [insertAll_eq (rel := q.rel.id) (by
    intro hx
    apply h.excluded
    simpa using hx)]
  rw [hnew]

/-! ### Update -/

omit [DecidableEq V] in
theorem restTree_unx (f : Slot → Bytes) : ∀ (ps : List FieldWrite) (o : Option Ex) (a : Ex),
    restTree f o a (sameKey false ps) = restTree f o a (sameKey false ps).unx
  | [], _, _ => rfl
  | p :: ps, o, a => by
    simp only [sameKey, Bool.false_eq_true, if_false, BList.unx, BExpr.unx, restTree]
    rw [restTree_unx f ps]
    rfl

theorem condsTree_unx (f : Slot → Bytes) : ∀ ps : List FieldWrite,
    condsTree f (sameKey true ps) = condsTree f (sameKey true ps).unx
  | [] => rfl
  | p :: ps => by
    simp only [sameKey, if_true, BList.unx, BExpr.unx, condsTree]
    rw [restTree_unx f ps]
    rfl

theorem restGram_unx : ∀ ps : List FieldWrite, RestGram kinds (sameKey false ps) → RestGram kinds (sameKey false ps).unx
  | [], _ => trivial
  | p :: ps, h => ⟨h.1, ⟨h.2.1.1, (show WordOk b!"x" by decide), h.2.1.2.2⟩, restGram_unx ps h.2.2⟩

theorem condsGram_unx : ∀ ps : List FieldWrite, CondsGram kinds (sameKey true ps) → CondsGram kinds (sameKey true ps).unx
  | [], h => h
  | p :: ps, h => ⟨h.1, ⟨h.2.1.1, (show WordOk b!"x" by decide), h.2.1.2.2⟩, restGram_unx ps h.2.2⟩

theorem slots_unx : ∀ (b : Bool) (ps : List FieldWrite), ((sameKey b ps).unx).slots = []
  | _, [] => rfl
  | _, p :: ps => by
    simp only [sameKey, BList.unx, BExpr.unx, VExpr.unx, BList.slots, BExpr.slots, VExpr.slots, slots_unx, List.append_nil]

theorem parts_unx : ∀ (b : Bool) (ps : List FieldWrite), ∀ p ∈ condsParts ((sameKey b ps).unx),
    (∃ w ∈ ps, p = .col w.colIdent ∨ p = .col ⟨b!"x", w.colIdent.name⟩ ∨ p = .cast w.column.type.nameFmt)
  | _, [], p, h => by cases h
  | b, w :: ps, p, h => by
    simp only [sameKey, BList.unx, BExpr.unx, VExpr.unx, condsParts, condParts, valParts, castParts, List.mem_append,
      List.mem_cons, List.not_mem_nil, or_false] at h
    rcases h with h | h
    · refine ⟨w, by simp, ?_⟩
      rcases h with h | h | h
      · exact .inl h
      · exact .inr (.inr h)
      · exact .inr (.inl h)
    · obtain ⟨w', hw, hp⟩ := parts_unx false ps p h
      exact ⟨w', by simp [hw], hp⟩

theorem map_unx (g : Slot → GoExpr) : ∀ (b : Bool) (ps : List FieldWrite),
    ((sameKey b ps).map g).unx = ((sameKey b ps).unx).map g
  | _, [] => rfl
  | b, w :: ps => by
    simp only [sameKey, BList.map, BList.unx, BExpr.map, BExpr.unx, VExpr.map, VExpr.unx, map_unx g false ps]

omit [DecidableEq V] in
theorem sameKey_total (f : Slot → GoExpr) {ps : List FieldWrite} (hne : ps ≠ []) :
    Total S (fun _ => none) ((sameKey true ps).map f).unx := by
  intro j
  have hrest : ∀ (ps : List FieldWrite) (acc : B3),
      ∃ b, evalRest (S.server.cond (fun _ => none) j) acc ((sameKey false ps).map f).unx = some b := by
    intro ps
    induction ps with
    | nil => intro acc; exact ⟨_, rfl⟩
    | cons p ps ih =>
      intro acc
      simp only [sameKey, Bool.false_eq_true, if_false, BList.map, BExpr.map, VExpr.map, BList.unx, BExpr.unx, VExpr.unx,
        evalRest, evalB, evalBin, evalV, Option.bind_some, Option.map_some]
      exact ih _
  cases ps with
  | nil => exact absurd rfl hne
  | cons p ps =>
    simp only [sameKey, if_true, BList.map, BExpr.map, VExpr.map, BList.unx, BExpr.unx, VExpr.unx,
      evalList, evalB, evalBin, evalV, Option.bind_some, Option.map_some]
    exact hrest ps _

omit [DecidableEq V] in
/-- A row of the list, by its cells. -/
theorem xRow_eq {A : Type} (val : A → Option V) (cell : A → Option (Option V)) : ∀ (cols : List Bytes) (vs : List A) (n : Bytes),
    (∀ v ∈ vs, cell v = some (val v)) →
    (((cols.zip vs).find? fun x => decide (x.1 = n)).bind fun x => val x.2) = xRow cols (vs.map cell) n
  | [], _, _, _ => rfl
  | _ :: _, [], _, _ => rfl
  | c :: cols, v :: vs, n, h => by
    unfold xRow
    simp only [List.map_cons, List.zip_cons_cons, List.find?_cons]
    by_cases hc : c = n
    · simp [hc, h v (by simp)]
    · simp only [hc, decide_false]
      exact xRow_eq val cell cols vs n fun y hy => h y (by simp [hy])

/-- The value of a column. -/
theorem cell_col (ps : List (Option V)) (j : Joined V) (p : List Tok) :
    S.cell ps j (.col p) = some (S.server.col j (colNamed p)) := by
  rw [TServer.cell, if_neg (by simp)]
  rfl

/-- **C95** An update with a slice of records that is sent changes each row whose primary key is that of a record to that
record (to one of them, if there are several), and no other row. -/
theorem C95_update_many_partial (h : SentRows S cat q t c w args) (hk : q.kind = .update) (hj : q.join = none)
    (hp : t.pkeys ≠ []) (hd : ∀ w ∈ t.writes, canUseDefault q w.field = false)
    (hdist : ((t.writes ++ onlyKeys t).map (·.column.name)).Nodup)
    (halias : q.rel.id.alias ≠ [] ∧ q.rel.id.alias ≠ b!"x") :
    ∃ tree, parse (lex (recordsText w c)) = some tree ∧ ∀ T T' out, S.Does (args.map sent) T T' out tree ↔
      ∃ ch : List (Row V × Option (GoExpr → Val)),
        ch.map (·.1) = T (tableOf q.rel.id) ∧
        (∀ x ∈ ch, match x.2 with
          | none => ∀ r ∈ w.records, S.server.sameRecord sent q t x.1 r = false
          | some r => r ∈ w.records ∧ S.server.sameRecord sent q t x.1 r = true) ∧
        T' = setTable T (tableOf q.rel.id)
          (ch.map fun x => x.2.elim x.1 fun r => S.server.recordOver (S.server.recordValue sent q r) q t x.1) ∧
        out = (ch.filter fun x => x.2.isSome).map fun _ => [] := by
  obtain ⟨tree, h1, h2⟩ := h.parsed
  refine ⟨tree, h2, fun T T' out => ?_⟩
  refine Iff.trans ?_ ((C81_batch_update_partial S.server h.batch hk hj h.writes hp hd hdist halias
    (fun w hw u => h.casts hk w (List.mem_append_left _ hw) u) h.code w h.records h.max sent args h.sends).2 T T' out)
  obtain ⟨e1, e2, _⟩ := C41_update h.batch hk hj hd h.code
  have hgr := generate_rowed kinds_num kinds_slice h.infos h.batch.slice h.code
  have m1 : c.meant.stmt = .update q.rel.id (t.writes.map (·.column.name)) (t.writes.map fun w => .xcol w.column.name)
      [.values] none [] := by
    simp [Code.meant, SQL.map, e1, Stmt.map, TableExpr.map, VExpr.map]
  have m2 : c.meant.tail = .update (some ((t.writes ++ onlyKeys t).map (·.column.name)))
      (some ((sameKey true t.pkeys).map (slotExpr c))) [] := by
    simp only [Code.meant, SQL.map, e2, Tail.map, Option.map_some, List.map_nil]
    rfl
  rw [e1, e2] at hgr h1
  simp only [rowedTree, Option.some.injEq, Option.map_some, List.map_nil] at h1
  have hname : nameOf (relTree q.rel.id) = q.rel.id := nameOf_rel h.rel.1 h.rel.2
  have hquals : ∀ p ∈ t.pkeys, lower p.colIdent.qualifier = p.colIdent.qualifier := by
    intro p hp'
    rw [(pkeys_ok h.batch.checked p hp').2.2.1]
    exact h.rel.2
  have hwhere : S.holds (args.map sent) (some (condsTree (fun a => (Generator.slotText w c a).getD []) (sameKey true t.pkeys))) =
      S.server.holds (fun _ => none) (some ((sameKey true t.pkeys).map (slotExpr c)).unx) := by
    funext j
    rw [condsTree_unx, map_unx]
    refine holds_row (condsGram_unx _ (hgr.2.2.2.2.2.1 _ rfl)) (fun j a ha => ?_) (fun p hm => ?_) (fun ty hm v => ?_) ?_ j
    · rw [slots_unx] at ha
      cases ha
    · obtain ⟨k, hk', rfl | rfl | rfl⟩ := parts_unx _ _ p hm
      · exact hquals k hk'
      · exact (show lower b!"x" = b!"x" by decide)
      · trivial
    · obtain ⟨k, hk', he | he | he⟩ := parts_unx _ _ _ hm
      · cases he
      · cases he
      · cases he
        exact h.casts hk k (List.mem_append_right _ hk') v
    · rw [← map_unx]
      exact sameKey_total _ hp
  have hothers : S.others (args.map sent) T (.values (rowsTree c.rowVals c.args.length w.records.length) (.word b!"x")
      (((t.writes ++ onlyKeys t).map (·.column.name)).map .name)) =
      (batchRows q t w.records.length).map fun row => [(xName, xRow ((t.writes ++ onlyKeys t).map (·.column.name))
        (row.map (S.server.cellAt (argAt sent args))))] := by
    have hid : (((t.writes ++ onlyKeys t).map (·.column.name)).map Tok.name).map ident =
        (t.writes ++ onlyKeys t).map (·.column.name) := by
      rw [List.map_map]
      exact List.map_id' _
    have e : ∀ (rows : List (List Ex)) (a : Tok) (cols : List Tok), S.others (args.map sent) T (.values rows a cols) =
        rows.map fun vs => [({ name := ident a },
          fun n => (((cols.map ident).zip vs).find? fun x => decide (x.1 = n)).bind fun x => S.value (args.map sent) [] x.2)] :=
      fun _ _ _ => rfl
    rw [e, hid, rowsTree_eq h.batch h.writes h.code]
    unfold batchRows
    rw [List.map_map, List.map_map, List.map_map]
    refine List.map_congr_left fun i _ => ?_
    have hcells := fun p => number_cells (S := S) (sent := sent) (args := args) (q := q) h.infos.writes
      (fun hk w hw => h.casts hk w (List.mem_append_left _ hw)) (rowExprs q t) p rowExprs_mem
    simp only [Function.comp]
    rw [← hcells]
    have : ∀ p, ∀ v ∈ (number p (rowExprs q t)).map (valTree ordinal),
        S.cell (args.map sent) [] v = some (S.value (args.map sent) [] v) := by
      intro p v hv
      rw [TServer.cell, if_neg]
      rintro rfl
      exact number_default (q := q) (t := t) hd _ p rowExprs_mem hv
    simp only [List.cons.injEq, Prod.mk.injEq, and_true]
    refine ⟨rfl, ?_⟩
    funext n
    exact xRow_eq _ _ _ _ n (this _)
  have hset : ∀ j, ((t.writes.map fun w => (VExpr.xcol w.column.name : VExpr Slot)).map
        (valTree fun a => (Generator.slotText w c a).getD [])).map (S.cell (args.map sent) j) =
      ((t.writes.map fun w => (VExpr.xcol w.column.name : VExpr GoExpr)).map VExpr.unx).map
        (S.server.cell (fun _ => none) j) := by
    intro j
    rw [List.map_map, List.map_map, List.map_map, List.map_map]
    refine List.map_congr_left fun x _ => ?_
    show S.cell _ j (.col [.word b!"x", .name x.column.name]) = some (S.server.col j ⟨b!"x", x.column.name⟩)
    exact cell_col ..
  have hcols : ((t.writes.map (·.column.name)).map Tok.name).map ident = t.writes.map (·.column.name) := by
    rw [List.map_map]
    exact List.map_id' _
  rw [← h1]
  unfold Server.DoesRows
  rw [m1]
  simp only [m2, Tail.update.injEq, Option.some.injEq, TServer.Does, hname, hwhere, hothers, hset, hcols]
  constructor
  · rintro ⟨ch, i1, i2, i3, i4⟩
    exact ⟨_, _, _, ⟨rfl, rfl, rfl⟩, ch, i1, i2, i3, i4⟩
  · rintro ⟨_, _, _, ⟨rfl, rfl, rfl⟩, ch, i1, i2, i3, i4⟩
    exact ⟨ch, i1, i2, i3, i4⟩

end

end Verif.Generator.Gram
