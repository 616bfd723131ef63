import Verif.Generator.PropsTreeDb2

/- Property C95: what the statement that is sent does to the tables is what the query asks for. -/
namespace Verif.Generator.Gram
open Verif.Analysis Verif.Postgres Verif.Generator.Lex Print

/-! ### The values of generated statements -/

section
variable {α β : Type}

theorem basic_map (g : α → β) : ∀ {x : VExpr α}, Basic (x.map g) → Basic x
  | .param _, _ => trivial
  | .col _, _ => trivial
  | .lit _, _ => trivial
  | .cast x _, h => by
    refine ⟨?_, basic_map g h.2⟩
    have := h.1
    cases x <;> first | exact this | trivial
  | .nullif _ _, h => ⟨basic_map g h.1, basic_map g h.2⟩
  | .coalesce _ _, h => ⟨basic_map g h.1, basic_map g h.2⟩
  | .default, h => h
  | .xcol _, h => h
  | .call _ _, h => h
  | .quantified _ _, h => h
  | .absent, h => h

theorem cell_map (g : α → β) {x : VExpr α} (h : Cell (x.map g)) : Cell x := by
  cases x with
  | default => trivial
  | lit s => exact h
  | param a => trivial
  | col c => trivial
  | cast x t => exact basic_map g (x := .cast x t) h
  | nullif x y => exact basic_map g (x := .nullif x y) h
  | coalesce x y => exact basic_map g (x := .coalesce x y) h
  | _ => exact h

theorem basic_read (r : FieldRead) : Basic (readVal r : VExpr α) := by
  unfold readVal addCoalesce
  split
  · split
    · exact ⟨trivial, trivial, trivial⟩
    · split
      · exact ⟨⟨trivial, trivial⟩, trivial⟩
      · split
        · exact ⟨trivial, trivial, trivial⟩
        · trivial
  · trivial

theorem cell_write (q : Query) (w : FieldWrite) : Cell (writeSpec q w) := by
  unfold writeSpec
  split
  · trivial
  · split
    · unfold addNullif
      split
      · exact ⟨trivial, trivial, trivial⟩
      · split
        · exact ⟨trivial, trivial, trivial⟩
        · trivial
    · trivial

theorem outs_map (g : α → β) (s : Stmt α) : stmtOuts (s.map g) = (stmtOuts s).map (VExpr.map g) := by
  cases s <;> rfl

theorem news_map (g : α → β) (s : Stmt α) : stmtNews (s.map g) = (stmtNews s).map (VExpr.map g) := by
  cases s with
  | insert t cs o vs c r => cases vs <;> rfl
  | _ => rfl

end

section
variable {q : Query} {t : TargetInfo} {sp : SQL GoExpr}

theorem outputVals_basic {α : Type} : ∀ x ∈ (outputVals t : List (VExpr α)), Basic x := by
  intro x hx
  unfold outputVals at hx
  obtain ⟨r, _, rfl⟩ := List.mem_map.1 hx
  exact basic_read r

/-- The statement is complete, its values are those that are read and written. -/
theorem spec_values (hs : sqlSpec q t = some sp) (hf : q.filter = none) (hone : isInsertOrUpdateSlice q = false) :
    sp = { stmt := sp.stmt } ∧ (∀ x ∈ stmtOuts sp.stmt, Basic x) ∧ (∀ x ∈ stmtNews sp.stmt, Cell x) := by
  have hw : ∀ x ∈ t.writes.map (writeSpec q), Cell x := by
    intro x hx
    obtain ⟨r, _, rfl⟩ := List.mem_map.1 hx
    exact cell_write q r
  have hnil : ∀ (P : VExpr GoExpr → Prop), ∀ x ∈ ([] : List (VExpr GoExpr)), P x := by simp
  have hslice : ∀ k, q.kind = k → (k = .insert ∨ k = .update) → q.rel.type.isSlice = false := by
    intro k hk h
    subst hk
    simpa [isInsertOrUpdateSlice, isInsertOrUpdate, h] using hone
  unfold sqlSpec buildStmt at hs
  split at hs
  · next hk =>
    have h1 := hslice _ hk (.inl rfl)
    simp only [buildInsert, h1, Bool.false_eq_true, if_false, Option.some.injEq] at hs
    subst hs
    exact ⟨rfl, outputVals_basic, hw⟩
  · next hk =>
    have h1 := hslice _ hk (.inr rfl)
    simp only [buildUpdate, h1, hf, Option.map_eq_some_iff] at hs
    obtain ⟨fr, _, rfl⟩ := hs
    have h2 : q.isSliceUpdate = false := by simp [Query.isSliceUpdate, h1]
    simp only [h2, Bool.false_eq_true, if_false, Option.isSome_none, false_and]
    exact ⟨trivial, outputVals_basic, hw⟩
  · simp only [Option.some.injEq] at hs
    subst hs
    exact ⟨rfl, outputVals_basic, hnil _⟩
  · simp only [buildCount, hf, Option.isNone_none, if_true, Option.some.injEq] at hs
    subst hs
    exact ⟨rfl, hnil _, hnil _⟩
  · simp only [buildExists, hf, Option.isNone_none, if_true, Option.some.injEq] at hs
    subst hs
    exact ⟨rfl, hnil _, hnil _⟩
  · simp only [buildExists, hf, Option.isNone_none, if_true, Option.some.injEq] at hs
    subst hs
    exact ⟨rfl, hnil _, hnil _⟩
  · simp only [buildDelete, Option.map_eq_some_iff] at hs
    obtain ⟨fr, _, rfl⟩ := hs
    exact ⟨rfl, outputVals_basic, hnil _⟩

end

/-! ### What is sent -/

/-- The fields have the values that are sent for them; what is sent for a slice are its elements. -/
structure Given {V : Type} (S : TServer V) (sent : Val → Option V) (w : World) (c : Code) (args : List Val)
    (field : Generator.Fields V) : Prop where
  arg : ∀ (k : Nat) e, c.args[k]? = some e → (args.map sent)[k]? = some (field (goPath e))
  slice : ∀ e ∈ c.g.slices, S.elems (field (goPath e)) = (w.slice e).map sent

/-- A query is accepted, its method is called with the values `field` and sends `args`; the texts are such that
PostgreSQL reads the statement that is meant (C89, `Spelled`), and no exception of C64 is used (`AsTold`). -/
structure Sent {V : Type} (S : TServer V) (sent : Val → Option V) (cat : Catalog) (q : Query) (t : TargetInfo) (c : Code)
    (w : World) (args : List Val) (field : Generator.Fields V) : Prop where
  plain : Plain cat q t
  accepted : ∃ env cache n fs s, CacheNamed cache ∧ analyzeQuery env cache n fs = .ok s ∧ s.q = q
  code : generate q t = some c
  catalog : CatPlain cat
  texts : ∀ x ∈ queryTexts q, Whole x
  infos : InfoFits q t
  noFilter : q.filter = none
  filled : Filled w c
  told : AsTold q
  sends : sentArgs q w c = some args
  max : args.length ≤ 65535
  spelled : Spelled c.sql.stmt
  sane : Sane S c.sql.stmt
  given : Given S sent w c args field

section
variable {V : Type} [DecidableEq V] {S : TServer V} {sent : Val → Option V} {cat : Catalog} {q : Query} {t : TargetInfo}
  {c : Code} {w : World} {args : List Val} {field : Generator.Fields V}

omit [DecidableEq V] in
theorem where_total (h : Plain cat q t) (hg : generate q t = some c) (hf : q.filter = none) (hr : AsTold q)
    (hgr : StmtGram kinds c.sql.stmt) {l : BList Slot} (hl : c.sql.stmt.wher = some l) :
    Total S field (l.map (slotExpr c)) := by
  obtain ⟨sp, hsp, hsay⟩ := h.says hg
  have h1 := hsay.wher
  have hne : q.kind ≠ .insert := by
    intro hk
    unfold sqlSpec buildStmt at hsp
    rw [hk] at hsp
    simp only [buildInsert, h.notSlice (.inl hk), Bool.false_eq_true, if_false, Option.some.injEq] at hsp
    subst hsp
    rw [hl] at h1
    cases h1
  have key : ∀ l' : BList GoExpr, WhereIs c l' → (∀ W : CondWorld (Option V), ∃ b, evalList W l' = some b) →
      Total S field (l.map (slotExpr c)) := by
    intro l' hl' he j
    unfold WhereIs at hl'
    rw [hl] at hl'
    simp only [Option.map_some, Option.some.injEq] at hl'
    rw [resolved_map hl']
    exact he _
  rw [sqlSpec_wher hsp hf h.one hne] at h1
  by_cases hu : isUpdateWithPKeys q = true
  · have hk : q.kind = .update ∧ q.hasWhere = false := by
      simpa [isUpdateWithPKeys] using hu
    have hp : t.pkeys ≠ [] := by
      intro hp
      have h2 : whereSpec q t = some .nil := by
        rw [whereSpec, if_pos hu, hp]
        rfl
      rw [h2, hl] at h1
      have h3 := gram_wher hgr hl
      cases l with
      | nil => exact h3
      | cons => simp [BList.map] at h1
    obtain ⟨l', hl', he⟩ := C64_pkeys h hg hk.1 hk.2 hp
    exact key l' hl' fun W => ⟨_, he _ W⟩
  · cases hw : q.wher with
    | none =>
      rw [whereSpec, if_neg hu, hw, hl] at h1
      cases h1
    | some x =>
      by_cases hi : x.items = []
      · obtain ⟨ck, _, _, _, _, _, _, _, _, _, _, hck⟩ := checkQuery_ok h.checked
        rw [hw] at hck
        simp only [Option.map_some, Option.getD_some, hi, checkWhereItems, Res.ok.injEq] at hck
        rw [whereSpec, if_neg hu, hw, ← hck, hl] at h1
        cases h1
      · obtain ⟨h3, h4⟩ := hr.wher x hw hi
        obtain ⟨l', hl', he⟩ := C64_where_partial h hg x hw hi h3 h4
        exact key l' hl' fun W => ⟨_, he _ W⟩

omit [DecidableEq V] in
theorem join_total (h : Plain cat q t) (hg : generate q t = some c) (hr : AsTold q) {x : TableJoin Slot}
    (hx : x ∈ c.sql.stmt.joins) (hn : isNil x.cond = false) : Total S field (x.cond.map (slotExpr c)) := by
  cases hj : q.join with
  | none =>
    exfalso
    obtain ⟨sp, hsp, hsay⟩ := h.says hg
    have h1 := hsay.joins
    by_cases hk : q.kind = .insert
    · unfold sqlSpec buildStmt at hsp
      rw [hk] at hsp
      simp only [buildInsert, h.notSlice (.inl hk), Bool.false_eq_true, if_false, Option.some.injEq] at hsp
      subst hsp
      have h2 := List.map_eq_nil_iff.1 (h1.trans rfl)
      rw [h2] at hx
      cases hx
    · rw [sqlSpec_joins hsp h.one hk, joinsSpec, hj] at h1
      rw [List.map_eq_nil_iff.1 h1] at hx
      cases hx
  | some j =>
    obtain ⟨js, hjs, hlen, hall⟩ := C64_joins_partial h hg j hj
    obtain ⟨i, hi⟩ := List.mem_iff_getElem?.1 hx
    have h1 := congrArg (fun l => l[i]?) hjs
    simp only [List.getElem?_map, hi, Option.map_some] at h1
    rw [eq_comm, Option.map_eq_some_iff] at h1
    obtain ⟨y, hy, h2⟩ := h1
    have hlt : i < j.directives.length := by
      rw [← hlen]
      exact (List.getElem?_eq_some_iff.1 hy).1
    obtain ⟨z, hz, _, _, hnil, hcond⟩ := hall i _ (List.getElem?_eq_getElem hlt)
    rw [hy, Option.some.injEq] at hz
    subst hz
    simp only [TableJoin.map, TableJoin.mk.injEq] at h2
    intro k
    rw [resolved_map h2.2.2.symm]
    by_cases hd : j.directives[i].items = []
    · have := hnil hd
      rw [this] at h2
      cases hxc : x.cond with
      | nil => rw [hxc] at hn; cases hn
      | cons => rw [hxc] at h2; simp [BList.map] at h2
    · exact ⟨_, hcond hd (hr.join j hj _ (List.getElem_mem hlt)) _ _⟩

/-- **C95** The statement that is sent is one of PostgreSQL's, and what it does to the tables is what the code that was
generated means it to do (C81). -/
theorem C95_tree (h : Sent S sent cat q t c w args field) :
    ∃ tree, parse (lex (sentText w c)) = some tree ∧
      ∀ T T' out, S.Does (args.map sent) T T' out tree ↔ S.server.Runs c field T T' out := by
  obtain ⟨env, cache, n, fs, s, hc, ha, rfl⟩ := h.accepted
  have h1 := C89_accepted w hc ha h.plain.checked h.code h.catalog h.texts h.infos h.noFilter h.plain.one h.filled
  have h2 := generate_gram kinds_num kinds_slice h.infos h.noFilter h.plain.one h.code
  obtain ⟨sp, hsp, hsay⟩ := h.plain.says h.code
  obtain ⟨h3, h4, h5⟩ := spec_values hsp h.noFilter h.plain.one
  have h6 : c.sql.stmt.map (slotExpr c) = sp.stmt := congrArg SQL.stmt hsay.meant
  refine ⟨_, h1, fun T T' out => ?_⟩
  have hready : Ready S (args.map sent) field (fun a => (Generator.slotText w c a).getD []) (slotExpr c) c.sql.stmt :=
    { gram := h2.1
      spelled := h.spelled
      sane := h.sane
      bound := fun j a hm => bound_given h.plain h.code h.sends h.max h.filled (List.mem_append_left _ hm)
        (fun k e _ he => h.given.arg k e he) h.given.slice
      outs := fun x hx => basic_map (slotExpr c) (h4 _ (by
        rw [← h6, outs_map]
        exact List.mem_map.2 ⟨x, hx, rfl⟩))
      news := fun x hx => cell_map (slotExpr c) (h5 _ (by
        rw [← h6, news_map]
        exact List.mem_map.2 ⟨x, hx, rfl⟩))
      wher := fun l hl => where_total h.plain h.code h.noFilter h.told h2.1 hl
      joins := fun x hx hn => join_total h.plain h.code h.told hx hn }
  rw [hready.does, h6]
  rw [h3] at hsay
  exact (runs_iff hsay field T T' out).symm

/-! ### What is asked for -/

/-- **C95** A select that is sent leaves the tables as they are and returns the rows that are asked for, in the order
that is asked for, from the offset on and not more than the limit. -/
theorem C95_select_partial (h : Sent S sent cat q t c w args field) (hk : q.kind = .select) :
    ∃ tree, parse (lex (sentText w c)) = some tree ∧ ∀ T T' out, S.Does (args.map sent) T T' out tree ↔
      T' = T ∧ ∃ l, l.Perm (S.server.askedRows field T q) ∧
        l.Pairwise (fun a b => S.server.askedOrder q a b = true) ∧
        out = (window (S.server.askedLimit field q) (S.server.askedOffset field q) l).map fun j =>
          t.reads.map (S.server.readField j) := by
  obtain ⟨tree, h1, h2⟩ := C95_tree h
  exact ⟨tree, h1, fun T T' out => (h2 T T' out).trans (C81_select_partial S.server h.plain h.told hk h.code field T T' out)⟩

/-- **C95** An insert that is sent adds the row of the record, or does what OnConflict says, and returns the row. -/
theorem C95_insert (h : Sent S sent cat q t c w args field) (hk : q.kind = .insert) :
    ∃ tree, parse (lex (sentText w c)) = some tree ∧ ∀ T T' out, S.Does (args.map sent) T T' out tree ↔
      let new := S.server.recordRow (fun w => field (recordPath q w.field)) q t
      let rows := T (tableOf q.rel.id)
      let done := fun (rows' : List (Row V)) (back : List (Row V)) =>
        T' = setTable T (tableOf q.rel.id) rows' ∧
          out = back.map fun r => t.reads.map (S.server.readField [(q.rel.id, r)])
      match t.conflict with
      | none => done (rows ++ [new]) [new]
      | some k =>
        match rows.find? (S.clash (tableOf q.rel.id) (targetTree k.target) new) with
        | none => done (rows ++ [new]) [new]
        | some old =>
          if k.update = [] then done rows []
          else
            let over := fun r : Row V => fun n => if n ∈ k.update.map (·.name) then new n else r n
            done (rows.map fun r => if S.clash (tableOf q.rel.id) (targetTree k.target) new r then over r else r)
              [over old] := by
  obtain ⟨tree, h1, h2⟩ := C95_tree h
  exact ⟨tree, h1, fun T T' out => (h2 T T' out).trans (C81_insert S.server h.plain hk h.code field T T' out)⟩

/-- **C95** An update that is sent, without other tables, changes the rows that are asked for to the record, and
returns them. -/
theorem C95_update_partial (h : Sent S sent cat q t c w args field) (hk : q.kind = .update) (hj : q.join = none)
    (hne : q.hasWhere = false → t.pkeys ≠ []) :
    ∃ tree, parse (lex (sentText w c)) = some tree ∧ ∀ T T' out, S.Does (args.map sent) T T' out tree ↔
      let over := S.server.recordOver (fun w => field (recordPath q w.field)) q t
      let asked := fun r : Row V => S.server.askedTarget field q t [(q.rel.id, r)]
      T' = setTable T (tableOf q.rel.id) ((T (tableOf q.rel.id)).map fun r => if asked r then over r else r) ∧
      out = ((T (tableOf q.rel.id)).filter asked).map fun r => t.reads.map (S.server.readField [(q.rel.id, over r)]) := by
  obtain ⟨tree, h1, h2⟩ := C95_tree h
  exact ⟨tree, h1, fun T T' out => (h2 T T' out).trans
    (C81_update_alone_partial S.server h.plain h.told hk h.noFilter hne hj h.code field T T' out)⟩

/-- **C95** An update that is sent, with other tables. -/
theorem C95_update_from_partial (h : Sent S sent cat q t c w args field) (hk : q.kind = .update)
    (hne : q.hasWhere = false → t.pkeys ≠ []) :
    ∃ tree, parse (lex (sentText w c)) = some tree ∧ ∀ T T' out, S.Does (args.map sent) T T' out tree ↔
      ∃ ch : List (Row V × Option (Joined V)),
        ch.map (·.1) = T (tableOf q.rel.id) ∧
        (∀ x ∈ ch, Chosen (S.server.askedOthers field T q) (S.server.askedTarget field q t) (q.rel.id, x.1) x.2) ∧
        let over := S.server.recordOver (fun w => field (recordPath q w.field)) q t
        T' = setTable T (tableOf q.rel.id) (ch.map fun x => if x.2.isSome then over x.1 else x.1) ∧
        out = ch.filterMap fun x => x.2.map fun o => t.reads.map (S.server.readField ((q.rel.id, over x.1) :: o)) := by
  obtain ⟨tree, h1, h2⟩ := C95_tree h
  exact ⟨tree, h1, fun T T' out => (h2 T T' out).trans
    (C81_update_partial S.server h.plain h.told hk h.noFilter hne h.code field T T' out)⟩

/-- **C95** A delete that is sent removes the rows that are asked for and returns them. -/
theorem C95_delete_partial (h : Sent S sent cat q t c w args field) (hk : q.kind = .delete) :
    ∃ tree, parse (lex (sentText w c)) = some tree ∧ ∀ T T' out, S.Does (args.map sent) T T' out tree ↔
      ∃ ch : List (Row V × Option (Joined V)),
        ch.map (·.1) = T (tableOf q.rel.id) ∧
        (∀ x ∈ ch, Chosen (S.server.askedOthers field T q) (S.server.askedRow field q) (q.rel.id, x.1) x.2) ∧
        T' = setTable T (tableOf q.rel.id) ((ch.filter fun x => x.2.isNone).map (·.1)) ∧
        out = ch.filterMap fun x => x.2.map fun o => t.reads.map (S.server.readField ((q.rel.id, x.1) :: o)) := by
  obtain ⟨tree, h1, h2⟩ := C95_tree h
  exact ⟨tree, h1, fun T T' out => (h2 T T' out).trans
    (C81_delete_partial S.server h.plain h.told hk h.code field T T' out)⟩

/-- **C95** A count that is sent returns the number of rows asked for, unless there is an offset. -/
theorem C95_count_partial (h : Sent S sent cat q t c w args field) (hk : q.kind = .selectCount) :
    ∃ tree, parse (lex (sentText w c)) = some tree ∧ ∀ T T' out, S.Does (args.map sent) T T' out tree ↔
      T' = T ∧ q.orderBy.getD [] = [] ∧
        out = if (S.server.askedOffset field q).getD 0 = 0 then
          [[some (S.ofNat (S.server.askedRows field T q).length)]] else [] := by
  obtain ⟨tree, h1, h2⟩ := C95_tree h
  exact ⟨tree, h1, fun T T' out => (h2 T T' out).trans
    (C81_count_partial S.server h.plain h.told hk h.noFilter h.code field T T' out)⟩

/-- **C95** An EXISTS that is sent tells whether there is a row as asked for. -/
theorem C95_exists_partial (h : Sent S sent cat q t c w args field)
    (hk : q.kind = .selectExists ∨ q.kind = .selectNotExists) :
    ∃ tree, parse (lex (sentText w c)) = some tree ∧ ∀ T T' out, S.Does (args.map sent) T T' out tree ↔
      T' = T ∧
        let found := decide ((S.server.askedOffset field q).getD 0 < (S.server.askedRows field T q).length) &&
          decide (S.server.askedLimit field q ≠ some 0)
        out = [[some (S.ofBool (if q.kind = .selectExists then found else !found))]] := by
  obtain ⟨tree, h1, h2⟩ := C95_tree h
  exact ⟨tree, h1, fun T T' out => (h2 T T' out).trans
    (C81_exists_partial S.server h.plain h.told hk h.noFilter h.code field T T' out)⟩

end

end Verif.Generator.Gram
