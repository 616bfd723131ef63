import Verif.Generator.PropsScope

/- Property C105: the checker finds the columns of a query in its relations. -/
namespace Verif.Generator.Names
open Verif.Analysis Verif.Postgres

/-- The column is one of a relation of the list: of that with its qualifier or, without one, of the first. -/
def Found (cat : Catalog) (tgt : RelIdent) (pre : List RelIdent) (c : ColIdent) : Prop :=
  ∃ r ∈ pre, c.name ∈ dbCols cat r ∧ (c.qualifier = relKey r ∨ (c.qualifier = [] ∧ r = tgt))

/-- The same for the condition of a join, where the column on the left is one of the relation that is joined. -/
def FoundOn (cat : Catalog) (pre : List RelIdent) (c : ColIdent) : Prop :=
  ∃ r ∈ pre, c.name ∈ dbCols cat r ∧ (c.qualifier = relKey r ∨ c.qualifier = [])

theorem Found.on {cat : Catalog} {tgt : RelIdent} {pre : List RelIdent} {c : ColIdent} (h : Found cat tgt pre c) :
    FoundOn cat pre c := by
  obtain ⟨r, hr, hn, hq⟩ := h
  exact ⟨r, hr, hn, hq.imp id (·.1)⟩

theorem relIdentKey_eq (r : RelIdent) : relIdentKey r = relKey r := by
  unfold relIdentKey relKey
  by_cases h : r.alias = []
  · simp [h]
  · simp [h, List.length_pos_iff.2 h]

/-- What the checker knows of the relations. -/
structure Knows (cat : Catalog) (tgt : RelIdent) (pre : List RelIdent) (c : Checker) : Prop where
  hcat : c.cat = cat
  rid : c.rid = tgt
  mem : tgt ∈ pre
  rel : c.rel.columns.map (·.name) = dbCols cat tgt
  relMap : ∀ k rel, List.lookup k c.relMap = some rel →
    ∃ r ∈ pre, rel.columns.map (·.name) = dbCols cat r ∧ (k = relKey r ∨ (k = [] ∧ r = tgt))

theorem loadRelation_cols {cat : Catalog} {rid : RelIdent} {rel : Relation} (h : loadRelation cat rid = .ok rel) :
    rel.columns.map (·.name) = dbCols cat rid := by
  unfold loadRelation at h
  unfold dbCols
  split at h
  · cases h
  · next r hr =>
    simp only [Res.bind_eq_ok, Res.map_eq_ok] at h
    obtain ⟨cols, hc, inds, _, rfl⟩ := h
    rw [hr]
    simp only [Option.map_some, Option.getD_some]
    have := mapP_ok.1 hc
    clear hc
    generalize r.columns = l at this
    induction this with
    | nil => rfl
    | cons h _ ih =>
      simp only [List.map_cons, ih]
      congr 1
      unfold loadColumn at h
      split at h
      · cases h
      · cases h; rfl

theorem loadTarget_knows {cat : Catalog} {rid : RelIdent} {c : Checker} (h : loadTarget cat rid = .ok c) :
    Knows cat rid [rid] c := by
  simp only [loadTarget, Res.map_eq_ok] at h
  obtain ⟨rel, h, rfl⟩ := h
  have hr := loadRelation_cols h
  refine ⟨rfl, rfl, by simp, hr, ?_⟩
  intro k r hl
  simp only [List.lookup_cons, List.lookup_nil] at hl
  split at hl
  · next he =>
    cases hl
    rw [beq_iff_eq] at he
    exact ⟨rid, by simp, hr, .inl (he.trans (relIdentKey_eq rid))⟩
  · split at hl
    · next he =>
      cases hl
      rw [beq_iff_eq] at he
      exact ⟨rid, by simp, hr, .inr ⟨he, rfl⟩⟩
    · cases hl

theorem loadJoin_knows {cat : Catalog} {tgt rid : RelIdent} {pre : List RelIdent} {c : Checker}
    (hc : Knows cat tgt pre c) {r : Checker × Relation} (h : loadJoin c rid = .ok r) :
    Knows cat tgt (pre ++ [rid]) r.1 ∧ r.2.columns.map (·.name) = dbCols cat rid := by
  simp only [loadJoin, Res.map_eq_ok] at h
  obtain ⟨rel, h, rfl⟩ := h
  rw [hc.hcat] at h
  have hr := loadRelation_cols h
  refine ⟨⟨hc.hcat, hc.rid, List.mem_append_left _ hc.mem, hc.rel, ?_⟩, hr⟩
  intro k r hl
  simp only [List.lookup_cons] at hl
  split at hl
  · next he =>
    cases hl
    rw [beq_iff_eq] at he
    exact ⟨rid, by simp, hr, .inl (he.trans (relIdentKey_eq rid))⟩
  · obtain ⟨x, hx, h1, h2⟩ := hc.relMap _ _ hl
    exact ⟨x, List.mem_append_left _ hx, h1, h2⟩

theorem findRelColumn_mem {rel : Relation} {n : Bytes} {col : Column} (h : findRelColumn rel n = some col) :
    n ∈ rel.columns.map (·.name) := by
  obtain ⟨h1, h2⟩ := Lex.findRelColumn_name h
  exact List.mem_map.2 ⟨col, h1, h2⟩

theorem findColumn_found {cat : Catalog} {tgt : RelIdent} {pre : List RelIdent} {c : Checker}
    (hc : Knows cat tgt pre c) {id : ColIdent} {col : Column} (h : findColumn c id = .ok col) :
    Found cat tgt pre id := by
  unfold findColumn at h
  split at h
  · cases h
  · next rel hl =>
    split at h
    · cases h
    · next k hk =>
      obtain ⟨r, hr, h1, h2⟩ := hc.relMap _ _ hl
      exact ⟨r, hr, h1 ▸ findRelColumn_mem hk, h2⟩

section
variable {cat : Catalog} {tgt : RelIdent} {pre : List RelIdent} {c : Checker} (hc : Knows cat tgt pre c)
include hc

/-- A column of the first relation, with its alias. -/
theorem own_found {id : ColIdent} {col : Column} (hn : findRelColumn c.rel id.name = some col)
    (hq : id.qualifier = tgt.alias) : Found cat tgt pre id := by
  refine ⟨tgt, hc.mem, hc.rel ▸ findRelColumn_mem hn, ?_⟩
  unfold relKey
  by_cases h : tgt.alias = []
  · exact .inr ⟨hq.trans h, rfl⟩
  · left; simp [h, hq]

theorem checkRhs_found {r : Rhs} {x : Option Column × Option PgType} {rs : RelSpace} (hd : r.Declared rs)
    (h : checkRhs c r = .ok x) : ∀ id ∈ rhsCols r, Found cat tgt pre id := by
  intro id hid
  cases r with
  | none => simp [rhsCols] at hid
  | literal s => simp [rhsCols] at hid
  | column cid =>
    simp only [rhsCols, List.mem_singleton] at hid
    subst hid
    simp only [checkRhs] at h
    split at h
    · rw [Res.map_eq_ok] at h
      obtain ⟨col, hcol, _⟩ := h
      exact findColumn_found hc hcol
    · next hn => exact absurd (List.length_pos_iff.2 hd.1.2.ne_nil) hn

theorem checkColCondOn_found {rs : RelSpace} {col : Column} {cc : ColCond} {b : Bool} {r : ColumnConditional}
    (hd : cc.rhs.Declared rs) (h : checkColCondOn c col cc b = .ok r) :
    r.lhs = cc.lhs ∧ ∀ id ∈ (if predIs Pred.isUnary r.pred then [] else rhsCols r.rhs), Found cat tgt pre id := by
  obtain ⟨h1, h2, h3, _⟩ := checkColCond_pred h
  refine ⟨h2, ?_⟩
  intro id hid
  rw [h1, h3] at hid
  unfold checkColCondOn at h
  split at h
  · next hu => rw [hu] at hid; simp at hid
  · next hu =>
    simp only [Bool.not_eq_true] at hu
    rw [hu] at hid
    simp only [Res.bind_eq_ok, Res.map_eq_ok] at h
    obtain ⟨x, hx, _⟩ := h
    exact checkRhs_found hc hd hx id hid

theorem checkBound_found {rs : RelSpace} {col : Column} {wb : BetweenCond} {p : Pred} {b : Bound} {r : RangeBound}
    (hp : p.isUnary = false) (hb : b.Declared rs) (h : checkBound c col wb p b = .ok r) :
    ∀ id ∈ boundCols r, Found cat tgt pre id := by
  cases b with
  | column cid =>
    simp only [checkBound, Res.map_eq_ok] at h
    obtain ⟨x, hx, rfl⟩ := h
    have hx := mapErr_eq_ok hx
    obtain ⟨h1, _, h2, _⟩ := checkColCond_pred hx
    have := (checkColCondOn_found (rs := rs) hc (show Rhs.Declared rs (.column cid) from hb) hx).2
    intro id hid
    simp only [boundCols, h2, rhsCol, List.mem_singleton] at hid
    refine this id ?_
    rw [h1, h2]
    simp [predIs, hp, rhsCols, hid]
  | field n t =>
    simp only [checkBound, Res.map_eq_ok] at h
    obtain ⟨x, hx, rfl⟩ := h
    intro id hid
    simp [boundCols] at hid

theorem checkWhereField_found {f : FieldCond} {r : FieldConditional} (h : checkWhereField c f = .ok r) :
    Found cat tgt pre r.colIdent := by
  simp only [checkWhereField, Res.bind_eq_ok] at h
  obtain ⟨col, hcol, h⟩ := h
  rw [(checkFieldCond_keeps h).2.2.2.2.1]
  exact findColumn_found hc hcol

theorem checkColCond_found {rs : RelSpace} {cc : ColCond} {b : Bool} {r : ColumnConditional}
    (hd : cc.Declared rs) (h : checkColCond c none cc b = .ok r) : ∀ id ∈ colCondCols r, Found cat tgt pre id := by
  simp only [checkColCond, findLhs, Res.bind_eq_ok] at h
  obtain ⟨col, hcol, h⟩ := h
  obtain ⟨h1, h2⟩ := checkColCondOn_found hc hd.2 h
  intro id hid
  rcases List.mem_cons.1 hid with rfl | hid
  · exact h1 ▸ findColumn_found hc hcol
  · exact h2 id hid

set_option linter.unusedSectionVars false in
mutual
theorem checkWhereItem_found {rs : RelSpace} : ∀ (i : WItem) (r : Cond), DeclItem rs i →
    checkWhereItem c i = .ok r → ∀ id ∈ condCols r, Found cat tgt pre id
  | .bool _, r, _, h => by cases h; intro id hid; simp [condCols] at hid
  | .nested n items, r, hd, h => by
    simp only [checkWhereItem, Res.map_eq_ok] at h
    obtain ⟨cs, hcs, rfl⟩ := h
    rw [condCols]
    cases hd with
    | nested _ _ hd => exact checkWhereItems_found items cs hd hcs
  | .column cc, r, hd, h => by
    simp only [checkWhereItem, Res.map_eq_ok] at h
    obtain ⟨x, hx, rfl⟩ := h
    rw [condCols]
    cases hd with
    | column _ hd => exact checkColCond_found hc hd hx
  | .field f, r, hd, h => by
    simp only [checkWhereItem, Res.map_eq_ok] at h
    obtain ⟨x, hx, rfl⟩ := h
    rw [condCols]
    intro id hid
    rw [List.mem_singleton] at hid
    exact hid ▸ checkWhereField_found hc hx
  | .between b, r, hd, h => by
    simp only [checkWhereItem, checkBetween, Res.map_eq_ok, Res.bind_eq_ok] at h
    obtain ⟨x, ⟨col, h0, l, h1, u, h2, rfl⟩, rfl⟩ := h
    rw [condCols]
    cases hd with
    | between _ hd hl hu =>
      intro id hid
      simp only [List.cons_append, List.mem_cons, List.mem_append] at hid
      rcases hid with rfl | hid | hid
      · exact findColumn_found hc h0
      · exact checkBound_found hc (by split <;> rfl) hl h1 id hid
      · exact checkBound_found hc (by split <;> rfl) hu h2 id hid
theorem checkWhereItems_found {rs : RelSpace} : ∀ (is : List WItem) (r : List Cond), (∀ i ∈ is, DeclItem rs i) →
    checkWhereItems c is = .ok r → ∀ id ∈ condsCols r, Found cat tgt pre id
  | [], r, _, h => by cases h; intro id hid; simp [condsCols] at hid
  | i :: is, r, hd, h => by
    simp only [checkWhereItems, Res.map_eq_ok, Res.bind_eq_ok] at h
    obtain ⟨x, hx, xs, hxs, rfl⟩ := h
    intro id hid
    rw [condsCols, List.mem_append] at hid
    rcases hid with hid | hid
    · exact checkWhereItem_found i x (hd i (List.mem_cons_self ..)) hx id hid
    · exact checkWhereItems_found is xs (fun i hi => hd i (List.mem_cons_of_mem _ hi)) hxs id hid
end

/-! ### Fields -/

theorem checkRead_found {f : FieldInfo} {b : Bool} {l : List FieldRead} (h : checkRead c f b = .ok l) :
    ∀ r ∈ l, Found cat tgt pre r.colIdent := by
  unfold checkRead at h
  split at h
  · split at h
    · cases h
    · cases h; simp
  · next col hcol =>
    rw [Res.map_eq_ok] at h
    obtain ⟨s, _, rfl⟩ := h
    intro r hr
    simp only at hr
    split at hr
    · cases hr
    · rw [List.mem_singleton] at hr
      subst hr
      exact own_found hc (id := { f.colIdent with qualifier := c.rid.alias }) hcol (by rw [hc.rid])

theorem checkReads_found {fs : List FieldInfo} {strict : FieldInfo → Bool} {l : List (List FieldRead)}
    (h : mapP (fun f => checkRead c f (strict f)) fs = .ok l) : ∀ r ∈ l.flatten, Found cat tgt pre r.colIdent := by
  intro r hr
  rw [List.mem_flatten] at hr
  obtain ⟨y, hy, hr⟩ := hr
  obtain ⟨x, hxm, hx⟩ := (mapP_ok.1 h).mem_right y hy
  exact checkRead_found hc hx r hr

theorem checkReturn_found {fs : List FieldInfo} {o : Option ColIdentList} {l : List FieldRead}
    (h : checkReturn c fs o = .ok l) : ∀ r ∈ l, Found cat tgt pre r.colIdent := by
  cases o with
  | none => cases h; simp
  | some o =>
    simp only [checkReturn] at h
    split at h
    · rw [Res.map_eq_ok] at h
      obtain ⟨l, h, rfl⟩ := h
      exact checkReads_found hc (strict := fun _ => false) h
    · simp only [Res.bind_eq_ok, Res.map_eq_ok] at h
      obtain ⟨sel, h1, l, h, rfl⟩ := h
      exact checkReads_found hc (strict := fun _ => true) h

theorem checkResult_found {o : Option (Bytes × RelType)} {l : List FieldRead} (h : checkResult c o = .ok l) :
    ∀ r ∈ l, Found cat tgt pre r.colIdent := by
  cases o with
  | none => cases h; simp
  | some r =>
    simp only [checkResult, Res.map_eq_ok] at h
    obtain ⟨l, h, rfl⟩ := h
    exact checkReads_found hc (strict := fun _ => true) h

/-- What is known of a field that is written. -/
def WriteFound (cat : Catalog) (tgt : RelIdent) (pre : List RelIdent) (w : FieldWrite) : Prop :=
  Found cat tgt pre w.colIdent ∧ w.column.name ∈ dbCols cat tgt ∧ w.colIdent.name = w.column.name

theorem checkWrite_found {f : FieldInfo} {i : Nat} {w : FieldWrite} (h : checkWrite c i f = .ok (some w)) :
    WriteFound cat tgt pre w := by
  obtain ⟨_, _, h3, h4⟩ := checkWrite_ok h
  have hn := (Lex.findRelColumn_name h3).2
  refine ⟨?_, ?_, by rw [h4, hn]⟩
  · rw [h4]
    exact own_found hc (id := { qualifier := c.rid.alias, name := f.colIdent.name }) h3 (by rw [hc.rid])
  · rw [hn, ← hc.rel]
    exact findRelColumn_mem h3

theorem checkRel_found {q : Query} {x : List FieldRead × WriteStep} (h : checkRel c q = .ok x) :
    (∀ r ∈ x.1, Found cat tgt pre r.colIdent) ∧ (∀ w ∈ x.2.writes, WriteFound cat tgt pre w) ∧
      ∀ w ∈ x.2.pkeys, WriteFound cat tgt pre w := by
  by_cases hw : Writing q
  · obtain ⟨l, hl, h1, h2, h3⟩ := checkRel_writing hw h
    have step : ∀ y ∈ l, (∀ w ∈ y.writes, WriteFound cat tgt pre w) ∧ ∀ w ∈ y.pkeys, WriteFound cat tgt pre w := by
      intro y hy
      obtain ⟨x, hx, hxy⟩ := hl.mem_right y hy
      rcases checkRelWrite_ok hxy with ⟨_, _, rfl⟩ | ⟨w', hw', rfl⟩
      · exact ⟨by simp, by simp⟩
      · have := checkWrite_found hc hw'
        constructor
        · intro w hw
          simp only at hw
          split at hw
          · cases hw
          · rw [List.mem_singleton] at hw; exact hw ▸ this
        · intro w hw
          simp only at hw
          split at hw
          · rw [List.mem_singleton] at hw; exact hw ▸ this
          · cases hw
    refine ⟨by simp [h3], ?_, ?_⟩
    · intro w hw
      rw [h1, List.mem_flatten] at hw
      obtain ⟨ws, hws, hw⟩ := hw
      rw [List.mem_map] at hws
      obtain ⟨y, hy, rfl⟩ := hws
      exact (step y hy).1 w hw
    · intro w hw
      rw [h2, List.mem_flatten] at hw
      obtain ⟨ws, hws, hw⟩ := hw
      rw [List.mem_map] at hws
      obtain ⟨y, hy, rfl⟩ := hws
      exact (step y hy).2 w hw
  · have h2 := checkRel_not_writing hw h
    refine ⟨?_, by simp [h2], by simp [h2]⟩
    unfold checkRel at h
    split at h
    · cases h; simp
    · split at h
      · simp only [checkRelReads, Res.map_eq_ok] at h
        obtain ⟨_, ⟨l, h, rfl⟩, rfl⟩ := h
        exact checkReads_found hc h
      · split at h
        · rw [Res.map_eq_ok] at h
          obtain ⟨_, _, rfl⟩ := h
          simp
        · cases h; simp

theorem checkColumns_found {cids : List ColIdent} {u : Unit} (h : Postgres.checkColumns c cids = .ok u) :
    ∀ id ∈ cids, Found cat tgt pre id := by
  simp only [Postgres.checkColumns, Res.map_eq_ok] at h
  obtain ⟨l, h, _⟩ := h
  intro id hid
  obtain ⟨y, _, hy⟩ := (mapP_ok.1 h).mem_left id hid
  exact findColumn_found hc hy

/-- The columns of DO UPDATE SET. -/
theorem checkConflict_found {ws : List FieldWrite} (hw : ∀ w ∈ ws, WriteFound cat tgt pre w) {oc : Option OnConflict}
    {r : Option ConflictInfo} (h : checkConflict c ws oc = .ok r) :
    ∀ i, r = some i → ∀ k ∈ i.update, k.name ∈ dbCols cat tgt := by
  cases oc with
  | none => cases h; simp
  | some oc =>
    simp only [checkConflict, Res.bind_eq_ok, Res.map_eq_ok] at h
    obtain ⟨t1, h1, t2, h2, t3, h3, u, h4, rfl⟩ := h
    intro i hi
    cases hi
    unfold conflictUpdate at h4
    split at h4
    · cases h4; simp
    · next l hl =>
      split at h4
      · cases h4
        intro k hk
        rw [List.mem_map] at hk
        obtain ⟨w, hwm, rfl⟩ := hk
        exact (hw w hwm).2.1
      · intro k hk
        obtain ⟨x, hxm, hx⟩ := (mapP_ok.1 h4).mem_right k hk
        unfold relColumn at hx
        split at hx
        · cases hx
        · next col hcol =>
          cases hx
          rw [(Lex.findRelColumn_name hcol).2, ← hc.rel]
          exact findRelColumn_mem hcol

end

/-! ### Joins -/

/-- The conditions of each join are found in the relations up to the one that is joined. -/
inductive JoinsFound (cat : Catalog) : List RelIdent → List JoinDir → List (List JoinCond) → Prop
  | nil (pre) : JoinsFound cat pre [] []
  | cons {pre d ds l cs} : (∀ id ∈ condsCols (l.map joinCond), FoundOn cat (pre ++ [d.relIdent]) id) →
      JoinsFound cat (pre ++ [d.relIdent]) ds cs → JoinsFound cat pre (d :: ds) (l :: cs)

theorem mem_condsCols {id : ColIdent} : ∀ {l : List Cond}, id ∈ condsCols l ↔ ∃ k ∈ l, id ∈ condCols k
  | [] => by simp [condsCols]
  | k :: ks => by simp [condsCols, mem_condsCols (l := ks)]

theorem checkJoinDirs_found {cat : Catalog} {tgt : RelIdent} {rs : RelSpace} : ∀ (ds : List JoinDir)
    (pre : List RelIdent) (c : Checker) (r : Checker × List (List JoinCond)), Knows cat tgt pre c →
    (∀ d ∈ ds, ∀ k ∈ d.conds, LhsOk d.relIdent k.lhs ∧ k.Declared rs) → checkJoinDirs c ds = .ok r →
    Knows cat tgt (pre ++ ds.map (·.relIdent)) r.1 ∧ JoinsFound cat pre ds r.2
  | [], pre, c, r, hc, _, h => by cases h; exact ⟨by simpa using hc, .nil _⟩
  | d :: ds, pre, c, r, hc, hd, h => by
    simp only [checkJoinDirs, Res.bind_eq_ok, Res.map_eq_ok] at h
    obtain ⟨cr, h1, items, h2, r', h3, rfl⟩ := h
    obtain ⟨hj, hcols⟩ := loadJoin_knows hc h1
    obtain ⟨ih1, ih2⟩ := checkJoinDirs_found ds _ _ _ hj (fun d' hd' => hd d' (List.mem_cons_of_mem _ hd')) h3
    refine ⟨by simpa using ih1, .cons ?_ ih2⟩
    intro id hid
    obtain ⟨k, hk, hid⟩ := mem_condsCols.1 hid
    rw [List.mem_map] at hk
    obtain ⟨y, hy, rfl⟩ := hk
    obtain ⟨x, hxm, hx⟩ := (mapP_ok.1 h2).mem_right y hy
    cases x with
    | bool b => cases hx; simp [joinCond, condCols] at hid
    | cond cc =>
      simp only [checkJoinItem, checkColCond, findLhs, Res.map_eq_ok, Res.bind_eq_ok] at hx
      obtain ⟨z, ⟨col, hcol, hz⟩, rfl⟩ := hx
      obtain ⟨hl, hdc⟩ := hd d (List.mem_cons_self ..) cc (Lex.mem_conds_of hxm)
      obtain ⟨e1, e2⟩ := checkColCondOn_found hj hdc.2 hz
      rw [joinCond, condCols, colCondCols, List.mem_cons] at hid
      rcases hid with rfl | hid
      · rw [e1]
        unfold relColumn at hcol
        split at hcol
        · cases hcol
        · next k hk =>
          exact ⟨d.relIdent, by simp, hcols ▸ findRelColumn_mem hk, hl.symm⟩
      · exact (e2 id hid).on

theorem checkJoin_found {cat : Catalog} {tgt : RelIdent} {rs : RelSpace} {c : Checker} {j : Option JoinStruct}
    {r : Checker × List (List JoinCond)} (hc : Knows cat tgt [tgt] c)
    (hd : ∀ x, j = some x → ∀ d ∈ x.directives, ∀ k ∈ d.conds, LhsOk d.relIdent k.lhs ∧ k.Declared rs)
    (h : checkJoin c j = .ok r) : Knows cat tgt (tgt :: (j.map JoinStruct.rels).getD []) r.1 ∧
      ∀ x, j = some x → JoinsFound cat (tgt :: x.relation.toList) x.directives r.2 := by
  cases j with
  | none => cases h; exact ⟨hc, by simp⟩
  | some j =>
    simp only [checkJoin, Res.bind_eq_ok] at h
    obtain ⟨c', h1, h2⟩ := h
    have hk : Knows cat tgt (tgt :: j.relation.toList) c' := by
      cases hr : j.relation with
      | none => rw [hr] at h1; cases h1; exact hc
      | some rid =>
        rw [hr] at h1
        simp only [joinBase, Res.map_eq_ok] at h1
        obtain ⟨_, h1, rfl⟩ := h1
        exact (loadJoin_knows hc h1).1
    obtain ⟨a, b⟩ := checkJoinDirs_found (rs := rs) _ _ _ _ hk (hd j rfl) h2
    exact ⟨by simpa [JoinStruct.rels] using a, fun x hx => by cases hx; exact b⟩

/-! ### The query -/

/-- What is known of the columns that the checker returns. -/
structure InfoFound (cat : Catalog) (q : Query) (t : TargetInfo) : Prop where
  reads : ∀ r ∈ t.reads, Found cat q.rel.id (q.rel.id :: q.joined) r.colIdent
  writes : ∀ w ∈ t.writes, WriteFound cat q.rel.id (q.rel.id :: q.joined) w
  pkeys : ∀ w ∈ t.pkeys, WriteFound cat q.rel.id (q.rel.id :: q.joined) w
  wher : ∀ id ∈ condsCols t.wher, Found cat q.rel.id (q.rel.id :: q.joined) id
  order : ∀ i ∈ q.orderBy.getD [], Found cat q.rel.id (q.rel.id :: q.joined) i.colIdent
  joins : ∀ j, q.join = some j → JoinsFound cat (q.rel.id :: j.relation.toList) j.directives t.joins
  conflict : ∀ i, t.conflict = some i → ∀ k ∈ i.update, k.name ∈ dbCols cat q.rel.id

theorem checkQuery_found {cat : Catalog} {q : Query} {rs : RelSpace} (hf : Fits q rs) {t : TargetInfo}
    (h : checkQuery cat q = .ok t) : InfoFound cat q t := by
  simp only [checkQuery, Res.bind_eq_ok] at h
  obtain ⟨c0, hc0, ⟨c1, joins⟩, hj, h⟩ := h
  obtain ⟨p1, pj⟩ := checkJoin_found (rs := rs) (loadTarget_knows hc0)
    (fun x hx d hd k hk => ((hf.join x hx).2 d hd k hk).2) hj
  have p : Knows cat q.rel.id (q.rel.id :: q.joined) { c1 with force := q.force } :=
    ⟨p1.hcat, p1.rid, p1.mem, p1.rel, p1.relMap⟩
  simp only [checkRest, Res.bind_eq_ok, Res.map_eq_ok] at h
  obtain ⟨_, _, _, _, u, ho, r1, h1, r2, h2, rw', h3, wh, h4, cf, h5, rfl⟩ := h
  obtain ⟨a3, a4, a5⟩ := checkRel_found p h3
  refine ⟨?_, a4, a5, ?_, ?_, pj, checkConflict_found p a4 h5⟩
  · intro r hr
    simp only [List.mem_append] at hr
    rcases hr with (hr | hr) | hr
    · exact checkReturn_found p h1 r hr
    · exact checkResult_found p h2 r hr
    · exact a3 r hr
  · refine checkWhereItems_found p _ _ ?_ h4 (rs := rs)
    intro i hi
    cases hw : q.wher with
    | none => rw [hw] at hi; simp at hi
    | some w =>
      rw [hw] at hi
      exact (hf.wher w hw i hi).2
  · intro i hi
    exact checkColumns_found p ho _ (List.mem_map_of_mem (f := (·.colIdent)) hi)

end Verif.Generator.Names
