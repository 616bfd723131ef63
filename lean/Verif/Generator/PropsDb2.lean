import Verif.Generator.PropsDb

/- C81: what the generated statements do to the tables. -/
namespace Verif.Generator
open Verif.Analysis Verif.Postgres

section
variable {V : Type} (S : Server V) [DecidableEq V]

/-- The generated statement, with the fields as its arguments, leads from the tables `T` to the tables `T'`
and returns the rows `out`. -/
def Server.Runs (c : Code) (field : Fields V) (T T' : Tables V) (out : List (List (Option V))) : Prop :=
  ∃ s, c.meant = { stmt := s } ∧ S.Does field T T' out s

variable {S}

theorem runs_iff {c : Code} {s : Stmt GoExpr} (h : Says c { stmt := s }) (field : Fields V) (T T' : Tables V)
    (out : List (List (Option V))) : S.Runs c field T T' out ↔ S.Does field T T' out s := by
  have hm := h.meant
  constructor
  · rintro ⟨s', e, hd⟩
    rw [hm] at e
    cases e
    exact hd
  · exact fun hd => ⟨s, hm, hd⟩

variable (S)

theorem output_reads (field : Fields V) (j : Joined V) (rs : List FieldRead) :
    S.output field j (rs.map readVal) = rs.map (S.readField j) := by
  unfold Server.output
  rw [List.map_map]
  exact List.map_congr_left fun r _ => value_readVal S field j r

variable {cat : Catalog} {q : Query} {t : TargetInfo} {c : Code}

/-! ### Reading -/

/-- **C81** A select returns the rows asked for, in the order asked for, from the offset on and at most as
many as the limit says; the tables stay as they are. -/
theorem C81_select_partial (h : Plain cat q t) (hr : AsTold q) (hk : q.kind = .select)
    (hc : generate q t = some c) (field : Fields V) (T T' : Tables V) (out : List (List (Option V))) :
    S.Runs c field T T' out ↔
      T' = T ∧ ∃ l, l.Perm (S.askedRows field T q) ∧ l.Pairwise (fun a b => S.askedOrder q a b = true) ∧
        out = (window (S.askedLimit field q) (S.askedOffset field q) l).map fun j => t.reads.map (S.readField j) := by
  have hu : isUpdateWithPKeys q = false := by simp [isUpdateWithPKeys, hk]
  rw [runs_iff (C39_select h hk hc), Server.Does, whereSpec_holds S h.toBuilt hr hu field,
    joinsSpec_asked S h.toBuilt hr field, limitSpec_rows, offsetSpec_rows, orderSpec_asked]
  simp only [output_reads, Server.askedRows]

/-- **C81** A count returns the number of rows asked for, unless there is an offset. -/
theorem C81_count_partial (h : Plain cat q t) (hr : AsTold q) (hk : q.kind = .selectCount) (hf : q.filter = none)
    (hc : generate q t = some c) (field : Fields V) (T T' : Tables V) (out : List (List (Option V))) :
    S.Runs c field T T' out ↔
      T' = T ∧ q.orderBy.getD [] = [] ∧
        out = if (S.askedOffset field q).getD 0 = 0 then [[some (S.ofNat (S.askedRows field T q).length)]] else [] := by
  have hu : isUpdateWithPKeys q = false := by simp [isUpdateWithPKeys, hk]
  have ho : orderSpec q = [] ↔ q.orderBy.getD [] = [] := by
    unfold orderSpec
    cases q.orderBy <;> simp
  rw [runs_iff ((C39_count h hk hc).1 hf), Server.Does, whereSpec_holds S h.toBuilt hr hu field,
    joinsSpec_asked S h.toBuilt hr field, offsetSpec_rows, ho, ← Server.askedRows]
  have hw : ∀ (o : Option Nat) (x : List (Option V)), window none o [x] = if o.getD 0 = 0 then [x] else [] := by
    intro o x
    unfold window
    by_cases hz : o.getD 0 = 0
    · simp [hz]
    · rw [if_neg hz]
      simp only
      rw [List.drop_eq_nil_iff]
      simpa using Nat.one_le_iff_ne_zero.2 hz
  rw [hw]

theorem window_isEmpty {α : Type} (limit offset : Option Nat) (l : List α) :
    (window limit offset l).isEmpty = !(decide (offset.getD 0 < l.length) && decide (limit ≠ some 0)) := by
  rw [Bool.eq_iff_iff, List.isEmpty_iff]
  unfold window
  cases limit with
  | none =>
    simp only [List.drop_eq_nil_iff]
    simp
  | some n =>
    simp only [List.take_eq_nil_iff, List.drop_eq_nil_iff]
    by_cases hn : n = 0 <;> simp [hn]

/-- **C81** An exists returns whether a row is asked for: more rows than the offset skips, and the limit is
not zero.  A not-exists returns the opposite. -/
theorem C81_exists_partial (h : Plain cat q t) (hr : AsTold q)
    (hk : q.kind = .selectExists ∨ q.kind = .selectNotExists) (hf : q.filter = none)
    (hc : generate q t = some c) (field : Fields V) (T T' : Tables V) (out : List (List (Option V))) :
    S.Runs c field T T' out ↔
      T' = T ∧
        let found := decide ((S.askedOffset field q).getD 0 < (S.askedRows field T q).length) &&
          decide (S.askedLimit field q ≠ some 0)
        out = [[some (S.ofBool (if q.kind = .selectExists then found else !found))]] := by
  have hu : isUpdateWithPKeys q = false := by rcases hk with hk | hk <;> simp [isUpdateWithPKeys, hk]
  rw [runs_iff ((C39_exists h hk hc).1 hf), Server.Does, whereSpec_holds S h.toBuilt hr hu field,
    joinsSpec_asked S h.toBuilt hr field, limitSpec_rows, offsetSpec_rows, ← Server.askedRows]
  simp only [window_isEmpty]
  rcases hk with hk | hk
  · simp [hk]
  · simp [hk]

/-! ### Insert -/

/-- **C81** An insert adds the row of the record, or does what its OnConflict says, and returns the row
added or changed. -/
theorem C81_insert (h : Plain cat q t) (hk : q.kind = .insert) (hc : generate q t = some c)
    (field : Fields V) (T T' : Tables V) (out : List (List (Option V))) :
    S.Runs c field T T' out ↔
      let new := S.recordRow (fun w => field (recordPath q w.field)) q t
      let rows := T (tableOf q.rel.id)
      let done := fun (rows' : List (Row V)) (back : List (Row V)) =>
        T' = setTable T (tableOf q.rel.id) rows' ∧
          out = back.map fun r => t.reads.map (S.readField [(q.rel.id, r)])
      match t.conflict with
      | none => done (rows ++ [new]) [new]
      | some k =>
        match rows.find? (S.clash (tableOf q.rel.id) k.target new) with
        | none => done (rows ++ [new]) [new]
        | some old =>
          if k.update = [] then done rows []
          else
            let over := fun r : Row V => fun n => if n ∈ k.update.map (·.name) then new n else r n
            done (rows.map fun r => if S.clash (tableOf q.rel.id) k.target new r then over r else r) [over old] := by
  have hs := h.notSlice (.inl hk)
  rw [runs_iff (C39_insert h hk hc), Server.Does]
  have hnew : S.newRow (tableOf q.rel.id) (t.writes.map (·.column.name)) ((t.writes.map (writeSpec q)).map (S.cell field [])) =
      S.recordRow (fun w => field (recordPath q w.field)) q t := by
    funext n
    rw [Server.newRow, setTo_written S q t hs]
    rfl
  simp only [Option.some.injEq, exists_eq_left', hnew, output_reads]
  generalize S.recordRow (fun w => field (recordPath q w.field)) q t = new
  cases hx : t.conflict with
  | none => simp [Server.insertOne]
  | some k =>
    simp only [Option.map_some, Server.insertOne]
    cases (T (tableOf q.rel.id)).find? (S.clash (tableOf q.rel.id) k.target new) with
    | none => simp
    | some old =>
      by_cases hz : k.update = []
      · simp [hz]
      · have h0 : (k.update.map (·.name)).length ≠ 0 := by simpa using hz
        simp only [if_neg hz, if_neg h0]
        exact Iff.rfl

/-! ### Update and delete -/

/-- The rows of the tables of FROM or USING: the first table of the join struct and those joined to it.
Without join struct there is one row without columns. -/
def Server.askedOthers (field : Fields V) (T : Tables V) (q : Query) : List (Joined V) :=
  match q.join with
  | none => [[]]
  | some j =>
    match j.relation with
    | none => [[]]
    | some r => sources T r (S.askedJoins field q)

/-- The row is the one with the primary key of the record. -/
def Server.askedKey (field : Fields V) (q : Query) (t : TargetInfo) (s : Joined V) : Bool :=
  t.pkeys.all fun p => S.op b!"=" (S.col s p.colIdent) (field (recordPath q p.field)) = some true

/-- The rows that an update or a delete is about. -/
def Server.askedTarget (field : Fields V) (q : Query) (t : TargetInfo) (s : Joined V) : Bool :=
  if q.kind = .update ∧ q.hasWhere = false then S.askedKey field q t s else S.askedRow field q s

omit [DecidableEq V] in
theorem others_asked (h : Built cat q t) (hr : AsTold q) (field : Fields V) (T : Tables V)
    (fr : List (TableExpr GoExpr)) (h1 : q.join = none → fr = [])
    (h2 : ∀ j, q.join = some j → ∃ r, j.relation = some r ∧
        fr = .rel r :: (List.zipWith joinSpec j.directives t.joins).map .join) :
    S.others field T fr = S.askedOthers field T q := by
  unfold Server.askedOthers
  cases hj : q.join with
  | none => rw [h1 hj]; rfl
  | some j =>
    obtain ⟨r, hrel, rfl⟩ := h2 j hj
    simp only [hrel, Server.others]
    have : ((List.zipWith joinSpec j.directives t.joins).map TableExpr.join).filterMap TableExpr.asJoin =
        joinsSpec q t := by
      have e : (TableExpr.asJoin ∘ TableExpr.join : TableJoin GoExpr → _) = some := rfl
      rw [List.filterMap_map, e, List.filterMap_some, joinsSpec, hj]
    rw [this, joinsSpec_asked S h hr]

theorem all3_true {A : Type} (f : A → B3) (l : List A) :
    all3 f l = some true ↔ ∀ x ∈ l, f x = some true := by
  induction l with
  | nil => simp [all3]
  | cons a l ih =>
    have : all3 f (a :: l) = and3 (f a) (all3 f l) := rfl
    rw [this]
    have h2 : ∀ x y : B3, and3 x y = some true ↔ x = some true ∧ y = some true := by
      intro x y
      rcases x with _ | _ | _ <;> rcases y with _ | _ | _ <;> simp [and3]
    rw [h2, ih]
    simp

omit [DecidableEq V] in
theorem target_asked (h : Plain cat q t) (hr : AsTold q) (hc : generate q t = some c)
    (hne : q.kind = .update → q.hasWhere = false → t.pkeys ≠ []) (field : Fields V) :
    S.holds field (whereSpec q t) = S.askedTarget field q t := by
  funext s
  unfold Server.askedTarget
  by_cases hu : isUpdateWithPKeys q = true
  · have hu' : q.kind = .update ∧ q.hasWhere = false := by simpa [isUpdateWithPKeys] using hu
    rw [if_pos hu']
    obtain ⟨l, hw, hl⟩ := C64_pkeys h hc hu'.1 hu'.2 (hne hu'.1 hu'.2)
    have hfil : q.filter = none := by
      cases hq : q.filter with
      | none => rfl
      | some f => simp [Query.hasWhere, hq] at hu'
    obtain ⟨s', hs', hsay⟩ := h.says hc
    rw [WhereIs, hsay.wher, sqlSpec_wher hs' hfil h.one (by rw [hu'.1]; decide)] at hw
    have hw' : whereSpec q t = some l := by
      cases hx : whereSpec q t with
      | none => rw [hx] at hw; cases hw
      | some l' =>
        rw [hx] at hw
        simp only [Option.map_some, Option.some.injEq] at hw
        have := congrArg (BList.map fun o => Option.getD o noSel) hw
        rw [BList.map_map, BList.map_map] at this
        have e : ((fun o => Option.getD o noSel) ∘ some : GoExpr → GoExpr) = id := rfl
        rw [e, BList.map_id, BList.map_id] at this
        rw [this]
    rw [hw', Server.holds, hl]
    rw [Bool.eq_iff_iff, Server.askedKey]
    simp [all3_true, Server.cond]
  · have hu' : ¬ (q.kind = .update ∧ q.hasWhere = false) := by simpa [isUpdateWithPKeys] using hu
    rw [if_neg hu', whereSpec_holds S h.toBuilt hr (by simpa using hu)]

/-- **C81** An update sets the columns of the written fields in the rows asked for and in no others, and
returns the changed rows.  If a row belongs to several rows of the joined tables, one of them is taken. -/
theorem C81_update_partial (h : Plain cat q t) (hr : AsTold q) (hk : q.kind = .update) (hf : q.filter = none)
    (hne : q.hasWhere = false → t.pkeys ≠ []) (hc : generate q t = some c)
    (field : Fields V) (T T' : Tables V) (out : List (List (Option V))) :
    S.Runs c field T T' out ↔
      ∃ ch : List (Row V × Option (Joined V)),
        ch.map (·.1) = T (tableOf q.rel.id) ∧
        (∀ x ∈ ch, Chosen (S.askedOthers field T q) (S.askedTarget field q t) (q.rel.id, x.1) x.2) ∧
        let over := S.recordOver (fun w => field (recordPath q w.field)) q t
        T' = setTable T (tableOf q.rel.id) (ch.map fun x => if x.2.isSome then over x.1 else x.1) ∧
        out = ch.filterMap fun x => x.2.map fun o => t.reads.map (S.readField ((q.rel.id, over x.1) :: o)) := by
  have hs := h.notSlice (.inr hk)
  obtain ⟨fr, h1, h2, h3, _⟩ := C39_update h hk hc
  rw [runs_iff (h3 hf), Server.Does]
  have hover : ∀ (old : Row V) (o : Joined V), S.assign (tableOf q.rel.id) (t.writes.map (·.column.name))
      ((t.writes.map (writeSpec q)).map (S.cell field ((q.rel.id, old) :: o))) old =
        S.recordOver (fun w => field (recordPath q w.field)) q t old := by
    intro old o
    funext n
    rw [Server.assign, setTo_written S q t hs]
    rfl
  have hm : ∀ x : Row V × Option (Joined V), ∀ over : Row V → Row V,
      x.2.elim x.1 (fun _ => over x.1) = if x.2.isSome then over x.1 else x.1 := by
    intro x over
    cases x.2 <;> rfl
  simp only [target_asked S h hr hc (fun _ => hne), others_asked S h.toBuilt hr field T fr h1 h2,
    output_reads, hover, hm]

omit [DecidableEq V] in
theorem chosen_alone (asked : Joined V → Bool) (x : RelIdent × Row V) (o : Option (Joined V)) :
    Chosen [[]] asked x o ↔ o = if asked [x] then some [] else none := by
  rcases o with _ | o
  · simp [Chosen]
  · by_cases hb : asked [x] = true
    · simp only [Chosen, List.mem_singleton, hb, if_true, Option.some.injEq]
      constructor
      · exact fun h => h.1
      · rintro rfl; exact ⟨rfl, hb⟩
    · simp only [Chosen, List.mem_singleton, hb]
      constructor
      · rintro ⟨rfl, h⟩; exact absurd h hb
      · intro h; cases h

/-- A list of rows, each with what is determined by it. -/
theorem pairs_iff {A B : Type} (l : List A) (f : A → B) (P : List (A × B) → Prop) :
    (∃ ch : List (A × B), ch.map (·.1) = l ∧ (∀ x ∈ ch, x.2 = f x.1) ∧ P ch) ↔ P (l.map fun a => (a, f a)) := by
  constructor
  · rintro ⟨ch, rfl, h, hp⟩
    have : (ch.map (·.1)).map (fun a => (a, f a)) = ch := by
      rw [List.map_map]
      conv => rhs; rw [← List.map_id ch]
      exact List.map_congr_left fun x hx => by rw [Function.comp, ← h x hx]; rfl
    rwa [this]
  · intro hp
    refine ⟨_, ?_, ?_, hp⟩
    · rw [List.map_map]; exact List.map_id l
    · intro x hx
      rw [List.mem_map] at hx
      obtain ⟨a, _, rfl⟩ := hx
      rfl

theorem filterMap_if {A B : Type} (l : List A) (p : A → Bool) (f : A → B) :
    (l.filterMap fun a => if p a then some (f a) else none) = (l.filter p).map f := by
  induction l with
  | nil => rfl
  | cons a l ih => by_cases h : p a = true <;> simp [h, ih]

/-- **C81** Without joined tables: the rows asked for are changed, the others stay as they are. -/
theorem C81_update_alone_partial (h : Plain cat q t) (hr : AsTold q) (hk : q.kind = .update) (hf : q.filter = none)
    (hne : q.hasWhere = false → t.pkeys ≠ []) (hj : q.join = none) (hc : generate q t = some c)
    (field : Fields V) (T T' : Tables V) (out : List (List (Option V))) :
    S.Runs c field T T' out ↔
      let over := S.recordOver (fun w => field (recordPath q w.field)) q t
      let asked := fun r : Row V => S.askedTarget field q t [(q.rel.id, r)]
      T' = setTable T (tableOf q.rel.id) ((T (tableOf q.rel.id)).map fun r => if asked r then over r else r) ∧
      out = ((T (tableOf q.rel.id)).filter asked).map fun r => t.reads.map (S.readField [(q.rel.id, over r)]) := by
  rw [C81_update_partial S h hr hk hf hne hc]
  have ho : S.askedOthers field T q = [[]] := by simp [Server.askedOthers, hj]
  simp only [ho, chosen_alone]
  generalize S.recordOver (fun w => field (recordPath q w.field)) q t = over
  rw [pairs_iff (T (tableOf q.rel.id)) (fun r => if S.askedTarget field q t [(q.rel.id, r)] then some [] else none)]
  rw [List.map_map, List.filterMap_map]
  have e1 : ∀ r : Row V, ((fun x : Row V × Option (Joined V) => if x.2.isSome then over x.1 else x.1) ∘
      fun r => (r, if S.askedTarget field q t [(q.rel.id, r)] then some [] else none)) r =
        if S.askedTarget field q t [(q.rel.id, r)] then over r else r := by
    intro r
    by_cases hb : S.askedTarget field q t [(q.rel.id, r)] = true <;> simp [hb]
  have e2 : ∀ r : Row V, ((fun x : Row V × Option (Joined V) => x.2.map fun o =>
      t.reads.map (S.readField ((q.rel.id, over x.1) :: o))) ∘
      fun r => (r, if S.askedTarget field q t [(q.rel.id, r)] then some [] else none)) r =
        if S.askedTarget field q t [(q.rel.id, r)] then some (t.reads.map (S.readField [(q.rel.id, over r)])) else none := by
    intro r
    by_cases hb : S.askedTarget field q t [(q.rel.id, r)] = true <;> simp [hb]
  rw [funext e1, funext e2, filterMap_if]

/-- **C81** A delete removes the rows asked for and no others, and returns them. -/
theorem C81_delete_partial (h : Plain cat q t) (hr : AsTold q) (hk : q.kind = .delete)
    (hc : generate q t = some c) (field : Fields V) (T T' : Tables V) (out : List (List (Option V))) :
    S.Runs c field T T' out ↔
      ∃ ch : List (Row V × Option (Joined V)),
        ch.map (·.1) = T (tableOf q.rel.id) ∧
        (∀ x ∈ ch, Chosen (S.askedOthers field T q) (S.askedRow field q) (q.rel.id, x.1) x.2) ∧
        T' = setTable T (tableOf q.rel.id) ((ch.filter fun x => x.2.isNone).map (·.1)) ∧
        out = ch.filterMap fun x => x.2.map fun o => t.reads.map (S.readField ((q.rel.id, x.1) :: o)) := by
  obtain ⟨us, h1, h2, h3⟩ := C39_delete h hk hc
  have hu : isUpdateWithPKeys q = false := by simp [isUpdateWithPKeys, hk]
  rw [runs_iff h3, Server.Does]
  simp only [whereSpec_holds S h.toBuilt hr hu field, others_asked S h.toBuilt hr field T us h1 h2, output_reads]

/-- **C81** Without joined tables: what is left are the rows not asked for. -/
theorem C81_delete_alone_partial (h : Plain cat q t) (hr : AsTold q) (hk : q.kind = .delete) (hj : q.join = none)
    (hc : generate q t = some c) (field : Fields V) (T T' : Tables V) (out : List (List (Option V))) :
    S.Runs c field T T' out ↔
      let asked := fun r : Row V => S.askedRow field q [(q.rel.id, r)]
      T' = setTable T (tableOf q.rel.id) ((T (tableOf q.rel.id)).filter fun r => !asked r) ∧
      out = ((T (tableOf q.rel.id)).filter asked).map fun r => t.reads.map (S.readField [(q.rel.id, r)]) := by
  rw [C81_delete_partial S h hr hk hc]
  have ho : S.askedOthers field T q = [[]] := by simp [Server.askedOthers, hj]
  simp only [ho, chosen_alone]
  rw [pairs_iff (T (tableOf q.rel.id)) (fun r => if S.askedRow field q [(q.rel.id, r)] then some [] else none)]
  rw [List.filterMap_map]
  have e2 : ∀ r : Row V, ((fun x : Row V × Option (Joined V) => x.2.map fun o =>
      t.reads.map (S.readField ((q.rel.id, x.1) :: o))) ∘
      fun r => (r, if S.askedRow field q [(q.rel.id, r)] then some [] else none)) r =
        if S.askedRow field q [(q.rel.id, r)] then some (t.reads.map (S.readField [(q.rel.id, r)])) else none := by
    intro r
    by_cases hb : S.askedRow field q [(q.rel.id, r)] = true <;> simp [hb]
  have e3 : ∀ l : List (Row V), ((l.map fun r => (r, if S.askedRow field q [(q.rel.id, r)] then some ([] : Joined V) else none)).filter
      fun x => x.2.isNone).map (·.1) = l.filter fun r => !S.askedRow field q [(q.rel.id, r)] := by
    intro l
    induction l with
    | nil => rfl
    | cons r l ih => by_cases hb : S.askedRow field q [(q.rel.id, r)] = true <;> simp [hb, ih]
  rw [funext e2, filterMap_if, e3]

end
end Verif.Generator
