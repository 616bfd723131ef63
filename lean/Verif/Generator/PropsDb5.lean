import Verif.Generator.PropsDb4

/- C81: what the statements for a slice of records do to the tables. -/
namespace Verif.Generator
open Verif.Analysis Verif.Postgres

/-! ### Statements with rows -/

/-- `x.name` as a column. -/
def VExpr.unx {α : Type} : VExpr α → VExpr α
  | .xcol n => .col ⟨b!"x", n⟩
  | .cast x t => .cast x.unx t
  | .nullif x y => .nullif x.unx y.unx
  | .coalesce x y => .coalesce x.unx y.unx
  | .call f x => .call f x.unx
  | .quantified q x => .quantified q x.unx
  | x => x

mutual
def BExpr.unx {α : Type} : BExpr α → BExpr α
  | .binary o l r => .binary o l.unx r.unx
  | .inList n x a => .inList n x.unx a
  | .truth n t x => .truth n t x.unx
  | .null n x => .null n x.unx
  | .between x lo hi => .between x.unx lo.unx hi.unx
  | .bare x => .bare x.unx
  | .group l => .group l.unx
def BList.unx {α : Type} : BList α → BList α
  | .nil => .nil
  | .cons k x l => .cons k x.unx l.unx
end

/-- The rows of `(VALUES ..) AS x (..)`. -/
def xName : RelIdent := { name := b!"x" }

def Tail.conflict {α : Type} : Tail α → Option ConflictClause
  | .insert k _ => k
  | _ => Option.none

def Tail.returning {α : Type} : Tail α → List (VExpr α)
  | .insert _ r => r
  | .update _ _ r => r
  | .none => []

section
variable {V : Type} (S : Server V) [DecidableEq V]

/-- A row of the list with the names of its columns. -/
def xRow (cols : List Bytes) (cells : List (Option (Option V))) : Row V := fun n =>
  ((cols.zip cells).find? fun x => x.1 = n).bind fun x => x.2.getD none

/-- What a statement with rows does: `INSERT .. VALUES rows ..`, one row after the other, and
`UPDATE .. FROM (VALUES rows) AS x (..) WHERE ..`; `env` are the parameters. -/
def Server.DoesRows (env : Nat → Option V) (rows : List (List (VExpr Nat))) (T T' : Tables V)
    (out : List (List (Option V))) (s : SQL GoExpr) : Prop :=
  match s.stmt with
  | .insert table cols _ none none [] =>
    let new := rows.map fun row => S.newRow (tableOf table) cols (row.map (S.cellAt env))
    let r := S.insertAll (tableOf table) s.tail.conflict new (T (tableOf table))
    T' = setTable T (tableOf table) r.1 ∧
      out = r.2.map fun x => S.output (fun _ => none) [(table, x)] s.tail.returning
  | .update table cols vals [.values] none [] =>
    ∃ xcols wher returning, s.tail = .update (some xcols) wher returning ∧
    ∃ ch : List (Row V × Option (Joined V)),
      ch.map (·.1) = T (tableOf table) ∧
      (∀ x ∈ ch, Chosen (rows.map fun row => [(xName, xRow xcols (row.map (S.cellAt env)))])
        (S.holds (fun _ => none) (wher.map BList.unx)) (table, x.1) x.2) ∧
      let change := fun (old : Row V) (o : Joined V) =>
        S.assign (tableOf table) cols
          ((vals.map VExpr.unx).map (S.cell (fun _ => none) ((table, old) :: o))) old
      T' = setTable T (tableOf table) (ch.map fun x => x.2.elim x.1 (change x.1)) ∧
      out = ch.filterMap fun x => x.2.map fun o => S.output (fun _ => none) ((table, change x.1 o) :: o) returning
  | _ => False

variable {cat : Catalog} {q : Query} {t : TargetInfo} {c : Code}

/-- The value of a record for a written field. -/
def Server.recordValue (_S : Server V) (db : Val → Option V) (q : Query) (r : GoExpr → Val) (w : FieldWrite) : Option V :=
  db (eval r (writeArg q w))

/-! ### Insert -/

theorem cellAt_insert (hk : q.kind = .insert) (f : GoExpr → Option V) (w : FieldWrite) :
    S.cellAt f (rowVal q w) = if asksDefault q w.field then none else some (S.stored w (f (writeArg q w))) := by
  unfold rowVal
  rw [asksDefault_eq]
  by_cases hd : asksDefault q w.field = true
  · rw [if_pos hd, if_pos hd]; rfl
  · rw [if_neg hd, if_neg hd]
    unfold Server.stored
    have hu : ¬ (q.kind = .update ∧ w.needsNullif = false) := by rw [hk]; simp
    simp only [if_neg hu]
    have he : (if w.needsNullif = true then nullLit w.column else none) =
        (if nullableColumn w.column ∧ ¬ SaysNull w then nullLit w.column else none) := by
      by_cases hn : w.needsNullif = true
      · rw [if_pos hn, if_pos ((needsNullif_iff w).1 hn)]
      · rw [if_neg hn, if_neg fun h => hn ((needsNullif_iff w).2 h)]
    rw [he]
    cases (if nullableColumn w.column ∧ ¬ SaysNull w then nullLit w.column else none) with
    | none => rfl
    | some z =>
      simp only [Server.cellAt, SqlWorld.val]
      by_cases hv : f (writeArg q w) = S.lit z
      · simp [hv]
      · simp [hv]

/-- **C81** An insert of a slice adds the rows of the records, one after the other, with what its OnConflict
says, and returns the rows added or changed. -/
theorem C81_batch_insert_partial (h : Batch cat q t) (hk : q.kind = .insert) (hw : t.writes ≠ [])
    (hc : generate q t = some c) (w : World) (hn : w.records ≠ [])
    (hmax : w.records.length * c.args.length ≤ 65535) (db : Val → Option V) (args : List Val)
    (ha : sentArgs q w c = some args) :
    (∀ main tail, recordText w c main tail =
      some (main ++ List.intercalate b!"," ((batchRows q t w.records.length).map valuesText) ++
        (match tail with
         | none => []
         | some x => b!" " ++ x))) ∧
    ∀ T T' out, S.DoesRows (argAt db args) (batchRows q t w.records.length) T T' out c.meant ↔
      let new := w.records.map fun r => S.recordRow (S.recordValue db q r) q t
      let r := S.insertAll (tableOf q.rel.id)
        (t.conflict.map fun x => { target := x.target, update := x.update.map (·.name) }) new (T (tableOf q.rel.id))
      T' = setTable T (tableOf q.rel.id) r.1 ∧
        out = r.2.map fun x => t.reads.map (S.readField [(q.rel.id, x)]) := by
  obtain ⟨h1, h2⟩ := batch_rows S h hw hc w hn hmax db args ha
  refine ⟨h1, fun T T' out => ?_⟩
  obtain ⟨e1, e2, _⟩ := C41_insert h hk hc
  have m1 : c.meant.stmt = .insert q.rel.id (t.writes.map (·.column.name)) q.override none none [] := by
    simp [Code.meant, SQL.map, e1, Stmt.map]
  have m2 : c.meant.tail.conflict = (t.conflict.map fun x => { target := x.target, update := x.update.map (·.name) }) ∧
      c.meant.tail.returning = t.reads.map readVal := by
    simp only [Code.meant, SQL.map, e2]
    split
    · rename_i hx
      simp [hx, Tail.map, Tail.conflict, Tail.returning]
    · refine ⟨rfl, ?_⟩
      simp only [Tail.map, Tail.returning, List.map_map]
      exact List.map_congr_left fun r _ => map_readVal _ r
  unfold Server.DoesRows
  rw [m1]
  simp only [m2.1, m2.2, output_reads]
  have hnew : (batchRows q t w.records.length).map (fun row => S.newRow (tableOf q.rel.id)
      (t.writes.map (·.column.name)) (row.map (S.cellAt (argAt db args)))) =
      w.records.map fun r => S.recordRow (S.recordValue db q r) q t := by
    have := congrArg (List.map (S.newRow (tableOf q.rel.id) (t.writes.map (·.column.name)))) h2
    rw [List.map_map, List.map_map] at this
    refine this.trans (List.map_congr_left fun r _ => ?_)
    funext n
    simp only [Function.comp, Server.newRow, rowExprs, hk, reduceCtorEq, if_false, List.append_nil, List.map_map]
    rw [setTo_writes, Server.recordRow, Server.written]
    cases (t.writes.find? fun w => w.column.name = n) with
    | none => rfl
    | some x =>
      simp only [Option.map_some, Function.comp, cellAt_insert S hk]
      split <;> rfl
  rw [hnew]

/-! ### Update -/

/-- The value with which the column of the primary key is compared. -/
def Server.keyValue (db : Val → Option V) (q : Query) (t : TargetInfo) (r : GoExpr → Val) (p : FieldWrite) : Option V :=
  match t.writes.find? fun w => w.idx = p.idx with
  | some w => S.stored w (S.recordValue db q r w)
  | none => db (eval r (fieldSel (.ident b!"v") p.field))

/-- The row has the primary key of the record. -/
def Server.sameRecord (db : Val → Option V) (q : Query) (t : TargetInfo) (row : Row V) (r : GoExpr → Val) : Bool :=
  t.pkeys.all fun p => S.op b!"=" (S.col [(q.rel.id, row)] p.colIdent) (S.keyValue db q t r p) = some true

theorem cellAt_update (hk : q.kind = .update) (f : GoExpr → Option V) (w : FieldWrite)
    (hd : canUseDefault q w.field = false) (hcast : ∀ u, S.cast w.column.type.nameFmt u = u) :
    S.cellAt f (rowVal q w) = some (S.stored w (f (writeArg q w))) := by
  have hid : S.cast w.column.type.nameFmt = id := funext hcast
  unfold rowVal
  rw [if_neg (by simp [hd])]
  unfold Server.stored
  by_cases hn : w.needsNullif = true
  · rw [if_pos hn, if_pos ((needsNullif_iff w).1 hn)]
    cases nullLit w.column with
    | none => simp [hn, Server.cellAt, SqlWorld.val]
    | some z =>
      simp only [Server.cellAt, SqlWorld.val]
      by_cases hv : f (writeArg q w) = S.lit z
      · simp [hv]
      · simp [hv]
  · rw [if_neg hn, if_neg fun h => hn ((needsNullif_iff w).2 h)]
    have hf : w.needsNullif = false := by simpa using hn
    simp [hk, hf, Server.cellAt, SqlWorld.val, hid]

theorem find_zip {A B : Type} (l : List A) (name : A → Bytes) (f : A → B) (hd : (l.map name).Nodup) (a : A) (ha : a ∈ l) :
    ((l.map name).zip (l.map f)).find? (fun x => x.1 = name a) = some (name a, f a) := by
  induction l with
  | nil => simp at ha
  | cons x l ih =>
    rw [List.map_cons, List.nodup_cons] at hd
    simp only [List.map_cons, List.zip_cons_cons, List.find?_cons]
    rcases List.mem_cons.1 ha with rfl | ha
    · simp
    · have : name x ≠ name a := fun he => hd.1 (he ▸ List.mem_map_of_mem ha)
      simp [this, ih hd.2 ha]

/-- The row of `x` for a record. -/
def Server.recordX (db : Val → Option V) (q : Query) (t : TargetInfo) (r : GoExpr → Val) : Row V :=
  xRow ((t.writes ++ onlyKeys t).map (·.column.name)) ((rowExprs q t).map (S.cellAt fun a => db (eval r a)))

theorem recordX_write (hk : q.kind = .update) (hdist : ((t.writes ++ onlyKeys t).map (·.column.name)).Nodup)
    (hd : ∀ w ∈ t.writes, canUseDefault q w.field = false)
    (hcast : ∀ w ∈ t.writes, ∀ u, S.cast w.column.type.nameFmt u = u) (db : Val → Option V) (r : GoExpr → Val)
    (w : FieldWrite) (hw : w ∈ t.writes) :
    S.recordX db q t r w.column.name = S.stored w (S.recordValue db q r w) := by
  unfold Server.recordX xRow rowExprs
  rw [if_pos hk, List.map_append, List.map_append, List.map_map, List.map_map, List.zip_append (by simp), List.find?_append,
    find_zip t.writes (·.column.name) (S.cellAt (fun a => db (eval r a)) ∘ rowVal q)
      (by rw [List.map_append] at hdist; exact hdist.sublist (List.sublist_append_left _ _)) w hw]
  simp [cellAt_update S hk _ w (hd w hw) (hcast w hw), Server.recordValue]

theorem recordX_key (hk : q.kind = .update) (hdist : ((t.writes ++ onlyKeys t).map (·.column.name)).Nodup)
    (db : Val → Option V) (r : GoExpr → Val) (p : FieldWrite) (hp : p ∈ onlyKeys t) :
    S.recordX db q t r p.column.name = db (eval r (fieldSel (.ident b!"v") p.field)) := by
  unfold Server.recordX xRow rowExprs
  rw [if_pos hk, List.map_append, List.map_append, List.map_map, List.map_map, List.zip_append (by simp), List.find?_append]
  have h0 : ((t.writes.map (·.column.name)).zip (t.writes.map (S.cellAt (fun a => db (eval r a)) ∘ rowVal q))).find?
      (fun x => x.1 = p.column.name) = none := by
    rw [List.find?_eq_none]
    intro x hx he
    have h1 := (List.of_mem_zip (a := x.1) (b := x.2) hx).1
    rw [List.map_append, List.nodup_append] at hdist
    exact hdist.2.2 _ h1 _ (List.mem_map_of_mem hp) (by simpa using he)
  rw [h0, find_zip (onlyKeys t) (·.column.name) _
      (by rw [List.map_append] at hdist; exact hdist.sublist (List.sublist_append_right _ _)) p hp]
  simp [Server.cellAt, SqlWorld.val]

theorem key_name (h : Built cat q t) (p : FieldWrite) (hp : p ∈ t.pkeys) : p.column.name = p.field.colIdent.name := by
  obtain ⟨_, _, _, rel, _, hf⟩ := pkeys_ok h.checked p hp
  simpa using List.find?_some hf

theorem recordX_keyValue (h : Built cat q t) (hk : q.kind = .update)
    (hdist : ((t.writes ++ onlyKeys t).map (·.column.name)).Nodup)
    (hd : ∀ w ∈ t.writes, canUseDefault q w.field = false)
    (hcast : ∀ w ∈ t.writes, ∀ u, S.cast w.column.type.nameFmt u = u) (db : Val → Option V) (r : GoExpr → Val)
    (p : FieldWrite) (hp : p ∈ t.pkeys) :
    S.recordX db q t r p.colIdent.name = S.keyValue db q t r p := by
  obtain ⟨hi, _, hcol, _⟩ := pkeys_ok h.checked p hp
  have hname : p.colIdent.name = p.column.name := by rw [hcol, key_name h p hp]
  rw [hname]
  unfold Server.keyValue
  cases hf : t.writes.find? fun w => w.idx = p.idx with
  | some w =>
    have hw := List.mem_of_find?_eq_some hf
    have hidx : w.idx = p.idx := by simpa using List.find?_some hf
    have h1 := ((C49_writes h.checked).1 w hw).1
    rw [hidx, hi, Option.some.injEq] at h1
    have hn : p.column.name = w.column.name := by rw [key_name h p hp, write_name h w hw, h1]
    rw [hn, recordX_write S hk hdist hd hcast db r w hw]
  | none =>
    have hp' : p ∈ onlyKeys t := by
      unfold onlyKeys
      rw [List.mem_filter]
      refine ⟨hp, decide_eq_true ?_⟩
      rw [List.mem_map]
      rintro ⟨w, hw, he⟩
      have := List.find?_eq_none.1 hf w hw
      exact this (by simpa using he)
    rw [recordX_key S hk hdist db r p hp']

omit [DecidableEq V] in
theorem sameKey_holds (f : Slot → GoExpr) (ps : List FieldWrite) (hne : ps ≠ []) (s : Joined V) :
    S.holds (fun _ => none) (some ((sameKey true ps).map f).unx) s =
      ps.all fun p => S.op b!"=" (S.col s p.colIdent) (S.col s ⟨b!"x", p.colIdent.name⟩) = some true := by
  let W := S.cond (fun _ => none) s
  let g := fun p : FieldWrite => W.op b!"=" (W.col p.colIdent) (W.col ⟨b!"x", p.colIdent.name⟩)
  have hrest : ∀ (ps : List FieldWrite) (acc : B3),
      evalRest W acc ((sameKey false ps).map f).unx = some (and3 acc (all3 g ps)) := by
    intro ps
    induction ps with
    | nil => intro acc; simp [sameKey, BList.map, BList.unx, evalRest, all3, and3_true]
    | cons p ps ih =>
      intro acc
      simp only [sameKey, Bool.false_eq_true, if_false, BList.map, BExpr.map, VExpr.map, BList.unx, BExpr.unx, VExpr.unx,
        evalRest, evalB, evalBin, evalV, Option.bind_some, Option.map_some, ih, BinOp.text, and3_assoc]
      rfl
  cases ps with
  | nil => exact absurd rfl hne
  | cons p ps =>
    have he : evalList W ((sameKey true (p :: ps)).map f).unx = some (all3 g (p :: ps)) := by
      simp only [sameKey, if_true, BList.map, BExpr.map, VExpr.map, BList.unx, BExpr.unx, VExpr.unx,
        evalList, evalB, evalBin, evalV, Option.bind_some, Option.map_some, hrest, BinOp.text]
      rfl
    rw [Server.holds, he, Bool.eq_iff_iff]
    simp only [decide_eq_true_eq, Option.some.injEq, all3_true, List.all_eq_true]
    rfl

/-- Choices among the images of a list are images of choices. -/
theorem choices {A B C : Type} (l : List C) (f : C → B) (ch : List (A × Option B))
    (h : ∀ x ∈ ch, ∀ o, x.2 = some o → o ∈ l.map f) :
    ∃ ch' : List (A × Option C), ch = ch'.map (fun x => (x.1, x.2.map f)) ∧ ∀ y ∈ ch', ∀ r, y.2 = some r → r ∈ l := by
  induction ch with
  | nil => exact ⟨[], rfl, by simp⟩
  | cons x ch ih =>
    obtain ⟨ch', rfl, h2⟩ := ih fun y hy => h y (by simp [hy])
    rcases hx : x.2 with _ | o
    · refine ⟨(x.1, none) :: ch', by rw [List.map_cons]; congr 1; exact Prod.ext rfl hx, ?_⟩
      intro y hy r hr
      rcases List.mem_cons.1 hy with rfl | hy
      · cases hr
      · exact h2 y hy r hr
    · have := h x (by simp) o hx
      rw [List.mem_map] at this
      obtain ⟨r0, hr0, rfl⟩ := this
      refine ⟨(x.1, some r0) :: ch', by rw [List.map_cons]; congr 1; exact Prod.ext rfl hx, ?_⟩
      intro y hy r hr
      rcases List.mem_cons.1 hy with rfl | hy
      · cases hr; exact hr0
      · exact h2 y hy r hr

omit S [DecidableEq V] in
theorem outputs_none {A B C D : Type} (l : List (A × Option C)) (f : C → B) (g : A → B → List D)
    (hg : ∀ a b, g a b = []) :
    (l.map fun x => (x.1, x.2.map f)).filterMap (fun x => x.2.map (g x.1)) =
      (l.filter fun x => x.2.isSome).map fun _ => [] := by
  induction l with
  | nil => rfl
  | cons y l ih =>
    rw [List.map_cons, List.filterMap_cons, ih]
    rcases hy : y.2 with _ | r <;> simp [hy, hg]

/-- **C81** An update with a slice changes each row whose primary key is that of a record to that record (to
one of them, if there are several), and no other row. -/
theorem C81_batch_update_partial (h : Batch cat q t) (hk : q.kind = .update) (hj : q.join = none) (hw : t.writes ≠ [])
    (hp : t.pkeys ≠ []) (hd : ∀ w ∈ t.writes, canUseDefault q w.field = false)
    (hdist : ((t.writes ++ onlyKeys t).map (·.column.name)).Nodup)
    (halias : q.rel.id.alias ≠ [] ∧ q.rel.id.alias ≠ b!"x")
    (hcast : ∀ w ∈ t.writes, ∀ u, S.cast w.column.type.nameFmt u = u)
    (hc : generate q t = some c) (w : World) (hn : w.records ≠ [])
    (hmax : w.records.length * c.args.length ≤ 65535) (db : Val → Option V) (args : List Val)
    (ha : sentArgs q w c = some args) :
    (∀ main tail, recordText w c main tail =
      some (main ++ List.intercalate b!"," ((batchRows q t w.records.length).map valuesText) ++
        (match tail with
         | none => []
         | some x => b!" " ++ x))) ∧
    ∀ T T' out, S.DoesRows (argAt db args) (batchRows q t w.records.length) T T' out c.meant ↔
      ∃ ch : List (Row V × Option (GoExpr → Val)),
        ch.map (·.1) = T (tableOf q.rel.id) ∧
        (∀ x ∈ ch, match x.2 with
          | none => ∀ r ∈ w.records, S.sameRecord db q t x.1 r = false
          | some r => r ∈ w.records ∧ S.sameRecord db q t x.1 r = true) ∧
        T' = setTable T (tableOf q.rel.id)
          (ch.map fun x => x.2.elim x.1 fun r => S.recordOver (S.recordValue db q r) q t x.1) ∧
        out = (ch.filter fun x => x.2.isSome).map fun _ => [] := by
  obtain ⟨h1, h2⟩ := batch_rows S h hw hc w hn hmax db args ha
  refine ⟨h1, fun T T' out => ?_⟩
  obtain ⟨e1, e2, _⟩ := C41_update h hk hj hd hc
  let f : Slot → GoExpr := fun s => (resolve c.args c.g.slices s).getD noSel
  have m1 : c.meant.stmt = .update q.rel.id (t.writes.map (·.column.name)) (t.writes.map fun w => .xcol w.column.name)
      [.values] none [] := by
    simp [Code.meant, SQL.map, e1, Stmt.map, TableExpr.map, VExpr.map]
  have m2 : c.meant.tail = .update (some ((t.writes ++ onlyKeys t).map (·.column.name)))
      (some ((sameKey true t.pkeys).map f)) [] := by
    simp [Code.meant, SQL.map, e2, Tail.map, f]
  have hx : (batchRows q t w.records.length).map (fun row =>
      [(xName, xRow ((t.writes ++ onlyKeys t).map (·.column.name)) (row.map (S.cellAt (argAt db args))))]) =
      w.records.map fun r => [(xName, S.recordX db q t r)] := by
    have := congrArg (List.map fun cells => ([(xName, xRow ((t.writes ++ onlyKeys t).map (·.column.name)) cells)] : Joined V)) h2
    rw [List.map_map, List.map_map] at this
    exact this
  have hcolx : ∀ (row x : Row V) n, S.col [(q.rel.id, row), (xName, x)] ⟨b!"x", n⟩ = x n := by
    intro row x n
    have h1 : S.owns q.rel.id ⟨b!"x", n⟩ = false := by
      simp only [Server.owns, knownAs, if_neg halias.1]
      simpa using fun e => halias.2 e.symm
    have h2 : S.owns xName ⟨b!"x", n⟩ = true := by simp [Server.owns, xName, knownAs]
    simp [Server.col, h1, h2]
  have hcolt : ∀ (row x : Row V), ∀ p ∈ t.pkeys, S.col [(q.rel.id, row), (xName, x)] p.colIdent =
      S.col [(q.rel.id, row)] p.colIdent := by
    intro row x p hp'
    obtain ⟨_, _, hi, _⟩ := pkeys_ok h.checked p hp'
    have : S.owns q.rel.id p.colIdent = true := by
      rw [hi]
      simp [Server.owns, knownAs, halias.1]
    simp [Server.col, this]
  have hkey : ∀ (row : Row V) (r : GoExpr → Val),
      S.holds (fun _ => none) (some ((sameKey true t.pkeys).map f).unx) [(q.rel.id, row), (xName, S.recordX db q t r)] =
        S.sameRecord db q t row r := by
    intro row r
    rw [sameKey_holds S f t.pkeys hp, Server.sameRecord, Bool.eq_iff_iff, List.all_eq_true, List.all_eq_true]
    refine forall_congr' fun p => forall_congr' fun hp' => ?_
    rw [hcolx, hcolt _ _ p hp', recordX_keyValue S h.toBuilt hk hdist hd hcast db r p hp']
  have hset : ∀ (row : Row V) (r : GoExpr → Val),
      S.assign (tableOf q.rel.id) (t.writes.map (·.column.name))
        (((t.writes.map fun w => VExpr.xcol w.column.name).map VExpr.unx).map
          (S.cell (fun _ => none) [(q.rel.id, row), (xName, S.recordX db q t r)])) row =
        S.recordOver (S.recordValue db q r) q t row := by
    intro row r
    funext n
    rw [Server.assign, List.map_map, List.map_map, setTo_writes, Server.recordOver, Server.written]
    cases hf : (t.writes.find? fun w => w.column.name = n) with
    | none => rfl
    | some x =>
      have hm := List.mem_of_find?_eq_some hf
      have hdx : asksDefault q x.field = false := by rw [← asksDefault_eq]; exact hd x hm
      simp only [Option.map_some, Function.comp, VExpr.unx, Server.cell, Server.value, SqlWorld.val, hcolx,
        recordX_write S hk hdist hd hcast db r x hm, hdx]
      rfl
  unfold Server.DoesRows
  rw [m1]
  simp only [m2, Tail.update.injEq, Option.some.injEq]
  constructor
  · rintro ⟨_, _, _, ⟨rfl, rfl, rfl⟩, ch, i1, i2, i3, i4⟩
    rw [hx] at i2
    obtain ⟨ch', rfl, hin⟩ := choices w.records (fun r => ([(xName, S.recordX db q t r)] : Joined V)) ch (by
      intro x hx' o ho
      have := i2 x hx'
      rw [ho] at this
      exact this.1)
    refine ⟨ch', ?_, ?_, ?_, ?_⟩
    · rw [← i1, List.map_map]; rfl
    · intro y hy
      have := i2 _ (List.mem_map_of_mem hy)
      rcases hy2 : y.2 with _ | r
      · simp only [hy2, Option.map_none, Chosen] at this ⊢
        intro r hr
        rw [← hkey]
        exact this _ (List.mem_map_of_mem hr)
      · simp only [hy2, Option.map_some, Chosen] at this ⊢
        refine ⟨hin y hy r hy2, ?_⟩
        rw [← hkey]
        exact this.2
    · rw [i3, List.map_map]
      congr 1
      refine List.map_congr_left fun y _ => ?_
      rcases hy2 : y.2 with _ | r
      · simp [hy2]
      · simp only [Function.comp, hy2, Option.map_some, Option.elim_some]
        exact hset y.1 r
    · rw [i4]
      exact outputs_none ch' _ (fun _ _ => []) fun _ _ => rfl
  · rintro ⟨ch', i1, i2, i3, i4⟩
    refine ⟨_, _, _, ⟨rfl, rfl, rfl⟩, ch'.map (fun x => (x.1, x.2.map fun r => ([(xName, S.recordX db q t r)] : Joined V))), ?_, ?_, ?_, ?_⟩
    · rw [List.map_map]; exact i1
    · rw [hx]
      intro x hx'
      rw [List.mem_map] at hx'
      obtain ⟨y, hy, rfl⟩ := hx'
      have := i2 y hy
      rcases hy2 : y.2 with _ | r
      · simp only [hy2] at this
        simp only [Option.map_none, Chosen]
        intro o ho
        rw [List.mem_map] at ho
        obtain ⟨r, hr, rfl⟩ := ho
        have h3 := hkey y.1 r
        rw [this r hr] at h3
        exact h3
      · simp only [hy2] at this
        simp only [Option.map_some, Chosen]
        refine ⟨List.mem_map_of_mem this.1, ?_⟩
        have h3 := hkey y.1 r
        rw [this.2] at h3
        exact h3
    · rw [i3, List.map_map]
      congr 1
      refine List.map_congr_left fun y _ => ?_
      rcases hy2 : y.2 with _ | r
      · simp [hy2]
      · simp only [Function.comp, hy2, Option.map_some, Option.elim_some]
        exact (hset y.1 r).symm
    · rw [i4]
      exact (outputs_none ch' _ (fun _ _ => []) fun _ _ => rfl).symm

end
end Verif.Generator
