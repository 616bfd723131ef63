import Verif.Postgres.PropsConflict
import Verif.Analysis.PropsMode

/-
Property C49: which fields of a record are read and written, by the modes of the fields and the force
list.
-/
namespace Verif.Postgres
open Verif.Analysis

/-! ### What an accepted query consists of -/

theorem checkJoinDirs_keeps : ∀ (ds : List JoinDir) (c : Checker) (r : Checker × List (List JoinCond)),
    checkJoinDirs c ds = .ok r → r.1.cat = c.cat ∧ r.1.rid = c.rid ∧ r.1.rel = c.rel ∧
      r.1.force = c.force
  | [], c, r, h => by cases h; exact ⟨rfl, rfl, rfl, rfl⟩
  | d :: ds, c, r, h => by
    simp only [checkJoinDirs, loadJoin, Res.bind_eq_ok, Res.map_eq_ok] at h
    obtain ⟨cr, ⟨rel, _, rfl⟩, _, _, r', h2, rfl⟩ := h
    have := checkJoinDirs_keeps ds _ _ h2
    exact this

theorem checkJoin_keeps {c : Checker} {j : Option JoinStruct} {r : Checker × List (List JoinCond)}
    (h : checkJoin c j = .ok r) : r.1.cat = c.cat ∧ r.1.rid = c.rid ∧ r.1.rel = c.rel ∧
      r.1.force = c.force := by
  cases j with
  | none => cases h; exact ⟨rfl, rfl, rfl, rfl⟩
  | some j =>
    simp only [checkJoin, Res.bind_eq_ok] at h
    obtain ⟨c', h1, h2⟩ := h
    have h2 := checkJoinDirs_keeps _ _ _ h2
    cases hr : j.relation with
    | none => rw [hr] at h1; cases h1; exact h2
    | some rid =>
      rw [hr] at h1
      simp only [joinBase, loadJoin, Res.map_eq_ok] at h1
      obtain ⟨_, ⟨_, _, rfl⟩, rfl⟩ := h1
      exact h2

/-- The checker that the parts of an accepted query are checked with. -/
structure CheckerFor (cat : Catalog) (q : Query) (c : Checker) : Prop where
  hcat : c.cat = cat
  rid : c.rid = q.rel.id
  rel : loadRelation cat q.rel.id = .ok c.rel
  force : c.force = q.force

theorem checkQuery_ok {cat : Catalog} {q : Query} {ti : TargetInfo} (h : checkQuery cat q = .ok ti) :
    ∃ c, CheckerFor cat q c ∧ ∃ r1 r2 rw,
      checkReturn c q.rel.type.fields q.ret = .ok r1 ∧ checkResult c q.result = .ok r2 ∧
      checkRel c q = .ok rw ∧ ti.reads = r1 ++ r2 ++ rw.1 ∧ ti.writes = rw.2.writes ∧
      ti.pkeys = rw.2.pkeys ∧
      checkWhereItems c ((q.wher.map (·.items)).getD []) = .ok ti.wher := by
  simp only [checkQuery, Res.bind_eq_ok] at h
  obtain ⟨c0, hc0, ⟨c1, joins⟩, hj, h⟩ := h
  have hk := checkJoin_keeps hj
  simp only [loadTarget, Res.map_eq_ok] at hc0
  obtain ⟨rel, hrel, rfl⟩ := hc0
  simp only [checkRest, Res.bind_eq_ok, Res.map_eq_ok] at h
  obtain ⟨_, _, _, _, _, _, r1, h1, r2, h2, rw, h3, wh, h4, cf, _, rfl⟩ := h
  refine ⟨{ c1 with force := q.force }, ⟨hk.1, hk.2.1, ?_, rfl⟩, r1, r2, rw, h1, h2, h3, rfl, rfl, rfl, h4⟩
  rw [hrel]
  exact congrArg _ hk.2.2.1.symm

/-! ### Lists -/

theorem Pairwise2.mem_right {α β : Type} {r : α → β → Prop} : ∀ {xs ys}, Pairwise2 r xs ys →
    ∀ y ∈ ys, ∃ x ∈ xs, r x y
  | _, _, .nil, y, h => by cases h
  | _, _, .cons h hs, y, hy => by
    rcases List.mem_cons.1 hy with rfl | hy
    · exact ⟨_, by simp, h⟩
    · obtain ⟨x, hx, hr⟩ := hs.mem_right y hy
      exact ⟨x, by simp [hx], hr⟩

theorem Pairwise2.mem_left {α β : Type} {r : α → β → Prop} : ∀ {xs ys}, Pairwise2 r xs ys →
    ∀ x ∈ xs, ∃ y ∈ ys, r x y
  | _, _, .nil, y, h => by cases h
  | _, _, .cons h hs, y, hy => by
    rcases List.mem_cons.1 hy with rfl | hy
    · exact ⟨_, by simp, h⟩
    · obtain ⟨x, hx, hr⟩ := hs.mem_left y hy
      exact ⟨x, by simp [hx], hr⟩

/-- Concatenating lists of at most one element each, with increasing keys. -/
theorem flatten_increasing {α β : Type} {r : α → List β → Prop} (key : β → Nat) (pos : α → Nat)
    (hr : ∀ x l, r x l → l.length ≤ 1 ∧ ∀ y ∈ l, key y = pos x) :
    ∀ {xs ys}, Pairwise2 r xs ys → xs.Pairwise (fun a b => pos a < pos b) →
      ys.flatten.Pairwise fun a b => key a < key b
  | _, _, .nil, _ => by simp
  | _, _, .cons (x := x) (xs := xs) (y := y) h hs, hp => by
    rw [List.pairwise_cons] at hp
    rw [List.flatten_cons, List.pairwise_append]
    refine ⟨?_, flatten_increasing key pos hr hs hp.2, ?_⟩
    · match y, (hr _ _ h).1 with
      | [], _ => simp
      | [a], _ => simp
    · intro a ha b hb
      rw [List.mem_flatten] at hb
      obtain ⟨l, hl, hb⟩ := hb
      obtain ⟨x', hx', hr'⟩ := hs.mem_right l hl
      rw [(hr _ _ h).2 a ha, (hr _ _ hr').2 b hb]
      exact hp.1 x' hx'

theorem zipIdx_increasing {α : Type} : ∀ (l : List α) (k : Nat),
    (l.zipIdx k).Pairwise fun a b => a.2 < b.2
  | [], _ => by simp
  | x :: l, k => by
    rw [List.zipIdx_cons, List.pairwise_cons]
    refine ⟨?_, zipIdx_increasing l (k + 1)⟩
    intro p hp
    have := List.le_snd_of_mem_zipIdx hp
    simp only
    omega

/-! ### C49 -/

/-- The column is in the force list of the query: all columns are, or its name is. -/
def Forced (q : Query) (name : Bytes) : Prop :=
  ∃ l, q.force = some l ∧ (l.all = true ∨ ∃ cid ∈ l.items, cid.name = name)

/-- The mode of a field admits the kind of query. -/
def Admits (kind : QKind) (m : FieldMode) : Prop :=
  (kind = .insert ∧ m.has modeInsert = true) ∨ (kind = .update ∧ m.has modeUpdate = true)

theorem unforced_iff {cat : Catalog} {q : Query} {c : Checker} (hc : CheckerFor cat q c) (cid : ColIdent) :
    unforced c cid = false ↔ Forced q cid.name := by
  unfold unforced Forced
  rw [hc.force]
  cases q.force with
  | none => simp
  | some l => simp [ColIdentList.contains, Decidable.or_iff_not_imp_left]

theorem checkWrite_ok {c : Checker} {i : Nat} {f : FieldInfo} {w : FieldWrite}
    (h : checkWrite c i f = .ok (some w)) :
    w.idx = i ∧ w.field = f ∧ findRelColumn c.rel f.colIdent.name = some w.column ∧
      w.colIdent = { qualifier := c.rid.alias, name := f.colIdent.name } := by
  unfold checkWrite at h
  split at h
  · cases h
  · simp only [Res.bind_eq_ok, Res.map_eq_ok] at h
    obtain ⟨_, _, _, _, h⟩ := h
    cases h
    exact ⟨rfl, rfl, by assumption, rfl⟩

theorem skipWrite_iff {cat : Catalog} {q : Query} {c : Checker} (hc : CheckerFor cat q c)
    (hk : q.kind = .insert ∨ q.kind = .update) (w : FieldWrite) :
    skipWrite c q.kind w = false ↔ Admits q.kind w.field.mode ∨ Forced q w.colIdent.name := by
  have hi : w.field.mode.canInsert = w.field.mode.has modeInsert := rfl
  have hu : w.field.mode.canUpdate = w.field.mode.has modeUpdate := rfl
  rw [← unforced_iff hc]
  unfold skipWrite skipInsert skipUpdate Admits
  rw [hi, hu]
  rcases hk with hk | hk <;> rw [hk] <;> simp [Decidable.or_iff_not_imp_left]

/-- A query whose record is written: an insert or update of values. -/
def Writing (q : Query) : Prop := q.rel.isDirective = false ∧ (q.kind = .insert ∨ q.kind = .update)

theorem checkRel_writing {c : Checker} {q : Query} {rw : List FieldRead × WriteStep} (hw : Writing q)
    (h : checkRel c q = .ok rw) : ∃ l, Pairwise2 (fun x y => checkRelWrite c q.kind x = .ok y)
      q.rel.type.fields.zipIdx l ∧ rw.2.writes = (l.map (·.writes)).flatten ∧
      rw.2.pkeys = (l.map (·.pkeys)).flatten ∧ rw.1 = [] := by
  obtain ⟨hd, hk⟩ := hw
  have hs : q.kind ≠ .select := by rcases hk with h | h <;> rw [h] <;> decide
  unfold checkRel at h
  rw [if_neg (by simp [hd]), if_neg hs, if_pos hk] at h
  simp only [Res.map_eq_ok, checkRelWrites] at h
  obtain ⟨w, ⟨l, hl, rfl⟩, rfl⟩ := h
  exact ⟨l, mapP_ok.1 hl, rfl, rfl, rfl⟩

theorem checkRel_not_writing {c : Checker} {q : Query} {rw : List FieldRead × WriteStep}
    (hw : ¬ Writing q) (h : checkRel c q = .ok rw) : rw.2 = {} := by
  unfold checkRel at h
  split at h
  · cases h; rfl
  · split at h
    · simp only [Res.map_eq_ok] at h
      obtain ⟨_, _, rfl⟩ := h
      rfl
    · split at h
      · rename_i h1 _ h2
        exact absurd ⟨by simpa using h1, h2⟩ hw
      · cases h; rfl

theorem checkRelWrite_ok {c : Checker} {k : QKind} {x : FieldInfo × Nat} {y : WriteStep}
    (h : checkRelWrite c k x = .ok y) :
    (findRelColumn c.rel x.1.colIdent.name = none ∧ x.1.isReadOnly = true ∧ y = {}) ∨
    ∃ w, checkWrite c x.2 x.1 = .ok (some w) ∧
      y = { pkeys := if w.column.isPrimary then [w] else []
            writes := if skipWrite c k w then [] else [w] } := by
  unfold checkRelWrite at h
  simp only [Res.bind_eq_ok] at h
  obtain ⟨o, ho, h⟩ := h
  cases o with
  | none =>
    refine .inl ?_
    have hn : findRelColumn c.rel x.1.colIdent.name = none := by
      unfold checkWrite at ho
      split at ho
      · assumption
      · simp only [Res.bind_eq_ok, Res.map_eq_ok] at ho
        obtain ⟨_, _, _, _, h⟩ := ho
        cases h
    simp only at h
    split at h
    · rename_i hr; cases h; exact ⟨hn, hr, rfl⟩
    · cases h
  | some w => cases h; exact .inr ⟨w, ho, rfl⟩

/-- **C49** What is written: fields of the record, in their order and each at most once, to columns of the
target relation, whose mode admits the statement or whose column is forced. -/
theorem C49_writes {cat : Catalog} {q : Query} {ti : TargetInfo} (h : checkQuery cat q = .ok ti) :
    (∀ w ∈ ti.writes, q.rel.type.fields[w.idx]? = some w.field ∧
      w.colIdent = { qualifier := q.rel.id.alias, name := w.field.colIdent.name } ∧
      (Admits q.kind w.field.mode ∨ Forced q w.field.colIdent.name) ∧
      ∃ rel, loadRelation cat q.rel.id = .ok rel ∧
        rel.columns.find? (fun c => c.name = w.field.colIdent.name) = some w.column) ∧
    ti.writes.Pairwise (fun a b => a.idx < b.idx) := by
  obtain ⟨c, hc, r1, r2, rw', _, _, hrel, _, hw, _, _⟩ := checkQuery_ok h
  by_cases hq : Writing q
  · obtain ⟨l, hl, he, hpk, _⟩ := checkRel_writing hq hrel
    clear hpk
    rw [hw, he]
    constructor
    · intro w hm
      rw [List.mem_flatten] at hm
      obtain ⟨ws, hws, hm⟩ := hm
      rw [List.mem_map] at hws
      obtain ⟨y, hy, rfl⟩ := hws
      obtain ⟨x, hx, hxy⟩ := hl.mem_right y hy
      rcases checkRelWrite_ok hxy with ⟨_, _, rfl⟩ | ⟨w', hw', rfl⟩
      · cases hm
      · simp only at hm
        split at hm
        · cases hm
        · rename_i hs
          rw [List.mem_singleton] at hm
          subst hm
          obtain ⟨a1, a2, a3, a4⟩ := checkWrite_ok hw'
          have hs := (skipWrite_iff hc hq.2 w).1 (by simpa using hs)
          have hget : q.rel.type.fields[w.idx]? = some w.field := by
            rw [a1, a2]
            have := List.mem_zipIdx_iff_getElem?.1 hx
            simpa using this
          refine ⟨hget, ?_, ?_, c.rel, hc.rel, ?_⟩
          · rw [a4, hc.rid, a2]
          · rw [a4] at hs; rw [a2] at hs ⊢; exact hs
          · rw [a2]; exact a3
    · refine flatten_increasing (r := fun x ws => ∃ y, checkRelWrite c q.kind x = .ok y ∧ ws = y.writes)
        (fun w => w.idx) (fun x => x.2) ?_ (xs := q.rel.type.fields.zipIdx) ?_ (zipIdx_increasing _ 0)
      · rintro x ws ⟨y, hxy, rfl⟩
        rcases checkRelWrite_ok hxy with ⟨_, _, rfl⟩ | ⟨w', hw', rfl⟩
        · simp
        · simp only
          split
          · simp
          · simp [(checkWrite_ok hw').1]
      · clear he hrel hw h
        generalize q.rel.type.fields.zipIdx = xs at hl ⊢
        induction hl with
        | nil => exact .nil
        | cons hxy _ ih => exact .cons ⟨_, hxy, rfl⟩ ih
  · rw [hw, checkRel_not_writing hq hrel]
    simp

/-- **C49** Every field that may be written is: a field with a column whose mode admits the statement, or
whose column is forced. -/
theorem C49_writes_complete {cat : Catalog} {q : Query} {ti : TargetInfo} (h : checkQuery cat q = .ok ti)
    (hq : Writing q) (i : Nat) (f : FieldInfo) (hf : q.rel.type.fields[i]? = some f)
    (hm : Admits q.kind f.mode ∨ Forced q f.colIdent.name) :
    (∃ w ∈ ti.writes, w.idx = i ∧ w.field = f) ∨
      (f.isReadOnly = true ∧ ∃ rel, loadRelation cat q.rel.id = .ok rel ∧
        ∀ c ∈ rel.columns, c.name ≠ f.colIdent.name) := by
  obtain ⟨c, hc, r1, r2, rw', _, _, hrel, _, hw, _, _⟩ := checkQuery_ok h
  obtain ⟨l, hl, he, _, _⟩ := checkRel_writing hq hrel
  have hx : (f, i) ∈ q.rel.type.fields.zipIdx := by
    rw [List.mem_zipIdx_iff_getElem?]; exact hf
  obtain ⟨y, hy, hxy⟩ := hl.mem_left _ hx
  rcases checkRelWrite_ok hxy with ⟨h1, h2, _⟩ | ⟨w, hw', rfl⟩
  · refine .inr ⟨h2, c.rel, hc.rel, ?_⟩
    intro col hcol
    have := List.find?_eq_none.1 h1 col hcol
    simpa using this
  · refine .inl ⟨w, ?_, (checkWrite_ok hw').1, (checkWrite_ok hw').2.1⟩
    rw [hw, he, List.mem_flatten]
    refine ⟨_, List.mem_map.2 ⟨_, hy, rfl⟩, ?_⟩
    have a := checkWrite_ok hw'
    have : skipWrite c q.kind w = false := by
      rw [skipWrite_iff hc hq.2, a.2.2.2, a.2.1]
      exact hm
    simp [this]

/-- **C49** Nothing is written by a select, a delete, or a statement without a record. -/
theorem C49_no_writes {cat : Catalog} {q : Query} {ti : TargetInfo} (h : checkQuery cat q = .ok ti)
    (hq : ¬ Writing q) : ti.writes = [] ∧ ti.pkeys = [] := by
  obtain ⟨c, hc, r1, r2, rw', _, _, hrel, _, hw, hp, _⟩ := checkQuery_ok h
  rw [hw, hp, checkRel_not_writing hq hrel]
  exact ⟨rfl, rfl⟩

theorem checkRead_mem {c : Checker} {f : FieldInfo} {s : Bool} {l : List FieldRead} {r : FieldRead}
    (h : checkRead c f s = .ok l) (hr : r ∈ l) :
    r.field = f ∧ findRelColumn c.rel f.colIdent.name = some r.column ∧
      r.colIdent = { qualifier := c.rid.alias, name := f.colIdent.name } ∧ skipRead c r = false := by
  unfold checkRead at h
  split at h
  · split at h
    · cases h
    · cases h; cases hr
  · simp only [Res.map_eq_ok] at h
    obtain ⟨v, _, rfl⟩ := h
    split at hr
    · cases hr
    · rename_i hs
      rw [List.mem_singleton] at hr
      subst hr
      exact ⟨rfl, by assumption, rfl, by simpa using hs⟩

theorem checkReads_mem {c : Checker} {s : FieldInfo → Bool} {fs : List FieldInfo} {l : List (List FieldRead)}
    {r : FieldRead} (h : mapP (fun f => checkRead c f (s f)) fs = .ok l) (hr : r ∈ l.flatten) :
    r.field ∈ fs ∧ findRelColumn c.rel r.field.colIdent.name = some r.column ∧
      r.colIdent = { qualifier := c.rid.alias, name := r.field.colIdent.name } ∧ skipRead c r = false := by
  rw [List.mem_flatten] at hr
  obtain ⟨ws, hws, hr⟩ := hr
  obtain ⟨x, hx, hxy⟩ := (mapP_ok.1 h).mem_right ws hws
  obtain ⟨rfl, a2, a3, a4⟩ := checkRead_mem hxy hr
  exact ⟨hx, a2, a3, a4⟩

theorem findQueryField_mem {c : Checker} {fs : List FieldInfo} {cid : ColIdent} {f : FieldInfo}
    (h : findQueryField c fs cid = .ok f) : f ∈ fs ∧ f.colIdent.name = cid.name := by
  unfold findQueryField at h
  split at h
  · cases h
  · rename_i hf
    simp only [Res.map_eq_ok] at h
    obtain ⟨_, _, rfl⟩ := h
    exact ⟨List.mem_of_find?_eq_some hf, by simpa using List.find?_some hf⟩

/-- **C49** What is read: fields of the record or of the result, from columns of the target relation, that
are not write-only, or forced. -/
theorem C49_reads {cat : Catalog} {q : Query} {ti : TargetInfo} (h : checkQuery cat q = .ok ti) :
    ∀ r ∈ ti.reads,
      (r.field ∈ q.rel.type.fields ∨ ∃ n t, q.result = some (n, t) ∧ r.field ∈ t.fields) ∧
      r.colIdent = { qualifier := q.rel.id.alias, name := r.field.colIdent.name } ∧
      (r.field.isWriteOnly = false ∨ Forced q r.field.colIdent.name) ∧
      ∃ rel, loadRelation cat q.rel.id = .ok rel ∧
        rel.columns.find? (fun c => c.name = r.field.colIdent.name) = some r.column := by
  obtain ⟨c, hc, r1, r2, rw', h1, h2, hrel, hr, _, _, _⟩ := checkQuery_ok h
  intro r hm
  have main : (r.field ∈ q.rel.type.fields ∨ ∃ n t, q.result = some (n, t) ∧ r.field ∈ t.fields) ∧
      findRelColumn c.rel r.field.colIdent.name = some r.column ∧
      r.colIdent = { qualifier := c.rid.alias, name := r.field.colIdent.name } ∧
      skipRead c r = false := by
    rw [hr, List.mem_append, List.mem_append] at hm
    rcases hm with (hm | hm) | hm
    · cases hq : q.ret with
      | none => rw [hq] at h1; cases h1; cases hm
      | some l =>
        rw [hq] at h1
        simp only [checkReturn] at h1
        split at h1
        · simp only [Res.map_eq_ok] at h1
          obtain ⟨l, hl, rfl⟩ := h1
          have := checkReads_mem hl hm
          exact ⟨.inl this.1, this.2⟩
        · simp only [Res.bind_eq_ok, Res.map_eq_ok] at h1
          obtain ⟨sel, hsel, l, hl, rfl⟩ := h1
          have := checkReads_mem (s := fun _ => true) hl hm
          refine ⟨.inl ?_, this.2⟩
          obtain ⟨x, _, hx⟩ := (mapP_ok.1 hsel).mem_right _ this.1
          exact (findQueryField_mem hx).1
    · cases hq : q.result with
      | none => rw [hq] at h2; cases h2; cases hm
      | some nt =>
        obtain ⟨n, t⟩ := nt
        rw [hq] at h2
        simp only [checkResult, Res.map_eq_ok] at h2
        obtain ⟨l, hl, rfl⟩ := h2
        have := checkReads_mem (s := fun _ => true) hl hm
        exact ⟨.inr ⟨n, t, rfl, this.1⟩, this.2⟩
    · unfold checkRel at hrel
      split at hrel
      · cases hrel; cases hm
      · split at hrel
        · simp only [checkRelReads, Res.map_eq_ok] at hrel
          obtain ⟨_, ⟨l, hl, rfl⟩, rfl⟩ := hrel
          have := checkReads_mem hl hm
          exact ⟨.inl this.1, this.2⟩
        · split at hrel
          · simp only [Res.map_eq_ok] at hrel
            obtain ⟨_, _, rfl⟩ := hrel
            cases hm
          · cases hrel; cases hm
  obtain ⟨a1, a2, a3, a4⟩ := main
  refine ⟨a1, ?_, ?_, c.rel, hc.rel, a2⟩
  · rw [a3, hc.rid]
  · unfold skipRead at a4
    rw [Bool.and_eq_false_iff] at a4
    refine a4.imp id fun h => ?_
    have := (unforced_iff hc _).1 h
    rw [a3] at this
    exact this

/-- **C49** A select reads every field that may be read. -/
theorem C49_reads_complete {cat : Catalog} {q : Query} {ti : TargetInfo} (h : checkQuery cat q = .ok ti)
    (hk : q.kind = .select) (hd : q.rel.isDirective = false) (f : FieldInfo) (hf : f ∈ q.rel.type.fields)
    (hw : f.isWriteOnly = false ∨ Forced q f.colIdent.name) :
    (∃ r ∈ ti.reads, r.field = f) ∨
      ((∃ l, q.optional = some l ∧ (l.all = true ∨ ∃ cid ∈ l.items, cid.name = f.colIdent.name)) ∧
        ∃ rel, loadRelation cat q.rel.id = .ok rel ∧
        ∀ c ∈ rel.columns, c.name ≠ f.colIdent.name) := by
  obtain ⟨c, hc, r1, r2, rw', _, _, hrel, hr, _, _, _⟩ := checkQuery_ok h
  unfold checkRel at hrel
  rw [if_neg (by simp [hd]), if_pos hk] at hrel
  simp only [checkRelReads, Res.map_eq_ok] at hrel
  obtain ⟨_, ⟨l, hl, rfl⟩, rfl⟩ := hrel
  obtain ⟨ys, hys, hx⟩ := (mapP_ok.1 hl).mem_left f hf
  unfold checkRead at hx
  split at hx
  · rename_i hn
    refine .inr ⟨?_, c.rel, hc.rel, ?_⟩
    · split at hx
      · cases hx
      · rename_i ho
        cases hq : q.optional with
        | none => rw [hq] at ho; simp at ho
        | some l => rw [hq] at ho; simpa [ColIdentList.contains, Decidable.or_iff_not_imp_left] using ho
    · intro col hcol
      have := List.find?_eq_none.1 hn col hcol
      simpa using this
  · rename_i col _
    simp only [Res.map_eq_ok] at hx
    obtain ⟨v, _, rfl⟩ := hx
    have hns : skipRead c
        { field := f, column := col, colIdent := { f.colIdent with qualifier := c.rid.alias }
          scanner := v } = false := by
      unfold skipRead
      rw [Bool.and_eq_false_iff]
      exact hw.imp id fun hfo => (unforced_iff hc _).2 hfo
    rw [if_neg (by rw [hns]; decide)] at hys
    refine .inl ⟨{ field := f, column := col, colIdent := { f.colIdent with qualifier := c.rid.alias }
                   scanner := v }, ?_, rfl⟩
    rw [hr, List.mem_append]
    exact .inr (List.mem_flatten.2 ⟨_, hys, List.mem_singleton.2 rfl⟩)

/-! ### Examples and exceptions -/

/-- A database with the relation `users (id integer primary key, name text)`. -/
def usersCat : Catalog :=
  { types := [intTy, textTy], ops := [⟨b!"=", Oid.int4, Oid.int4⟩]
    rels := [(b!"users",
      { columns := [{ num := 1, name := b!"id", typeOid := Oid.int4, isPrimary := true, hasDefault := true },
                    { num := 2, name := b!"name", typeOid := Oid.text }] })] }

def idField (m : FieldMode) : FieldInfo :=
  { name := b!"Id", type := .leaf { kind := .int }, colIdent := { name := b!"id" }, mode := m }
def nameField (m : FieldMode) : FieldInfo :=
  { name := b!"Name", type := .leaf { kind := .string }, colIdent := { name := b!"name" }, mode := m }

/-- A query on `users` with the given fields. -/
def usersQuery (kind : QKind) (force : Option ColIdentList) (fs : List FieldInfo) : Query :=
  { typeName := b!"Q", kind := kind, force := force
    rel := { fieldName := b!"User", id := { name := b!"users", alias := b!"u" }, type := { fields := fs } } }

/-- The names of the columns written and read. -/
def touched (r : P TargetInfo) : Option (List Bytes × List Bytes) :=
  match r with
  | .ok t => some (t.writes.map (·.column.name), t.reads.map (·.column.name))
  | _ => none

example : touched (checkQuery usersCat
    (usersQuery .insert none [idField (modeDefault.clear modeWrite), nameField modeDefault])) =
      some ([b!"name"], []) := by decide +kernel
example : touched (checkQuery usersCat
    (usersQuery .insert (some { items := [{ name := b!"id" }] })
      [idField (modeDefault.clear modeWrite), nameField modeDefault])) =
      some ([b!"id", b!"name"], []) := by decide +kernel
example : touched (checkQuery usersCat
    (usersQuery .select none [idField modeDefault, nameField (modeDefault.clear modeRead)])) =
      some ([], [b!"id"]) := by decide +kernel

/-- **C49** Only the mode of the field itself counts for writing: the field of a struct marked read-only is
read-only for the analyzer, and written. -/
theorem C49_not_nested :
    let f := { nameField modeDefault with
      selector := [{ name := b!"Profile", mode := modeDefault.clear modeWrite }] }
    f.isReadOnly = true ∧
    touched (checkQuery usersCat (usersQuery .update none [idField modeDefault, f])) =
      some ([b!"id", b!"name"], []) := by decide +kernel

/-- **C49** A field that may be neither read nor written is not "write-only", and is read. -/
theorem C49_not_read_no_write :
    let m := (modeDefault.clear modeRead).clear modeWrite
    m.canSelect = false ∧ (nameField m).isWriteOnly = false ∧
    touched (checkQuery usersCat (usersQuery .select none [idField modeDefault, nameField m])) =
      some ([], [b!"id", b!"name"]) := by decide +kernel

end Verif.Postgres
