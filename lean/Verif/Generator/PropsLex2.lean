import Verif.Generator.PropsLex
import Verif.Generator.Pipeline
import Verif.Generator.Run
import Verif.Analysis.PropsNamed

/-
Property C87 for accepted queries: the statement generated for a query consists of the tokens that are meant,
provided the texts that are copied from the tags and from the catalog make sense by themselves.
-/
namespace Verif.Generator.Lex
open Verif.Analysis Verif.Postgres

/-! ### What is required -/

/-- The texts that are copied from the catalog make sense by themselves: the names of the types, the
predicates and the expressions of the indexes. The names of functions are identifiers. -/
structure CatPlain (cat : Catalog) : Prop where
  types : ∀ oid t, cat.type oid = some t → Whole t.nameFmt
  indexes : ∀ n r, List.lookup n cat.rels = some r → ∀ i ∈ r.indexes,
    Whole i.predicate ∧ ∀ e, parseIndexExpr i.definition = .ok e → Whole e
  funcs : ∀ fn, (cat.procsOf fn).length ≠ 0 → Ident fn

/-- The literal of a condition. -/
def rhsTexts : Rhs → List Bytes
  | .literal s => [s]
  | _ => []

mutual
def itemTexts : WItem → List Bytes
  | .nested _ items => itemsTexts items
  | .column c => rhsTexts c.rhs
  | _ => []
def itemsTexts : List WItem → List Bytes
  | [] => []
  | i :: is => itemTexts i ++ itemsTexts is
end

def joinTexts (j : JoinStruct) : List Bytes :=
  j.directives.flatMap fun d => d.conds.flatMap fun c => rhsTexts c.rhs

/-- The texts that are copied from the tags as they are: the literals of the conditions and the values for
NULL. -/
def queryTexts (q : Query) : List Bytes :=
  itemsTexts ((q.wher.map (·.items)).getD []) ++ (q.join.map joinTexts).getD [] ++
    q.rel.type.fields.map (·.coalesceValue) ++
    ((q.result.map fun r => r.2.fields.map (·.coalesceValue)).getD [])

/-! ### The result of the checks -/

def RhsPlain : Rhs → Prop
  | .none => True
  | .column c => ColNamed c
  | .literal s => Whole s

def FieldCondPlain (f : FieldConditional) : Prop :=
  ColNamed f.colIdent ∧ Whole f.column.type.nameFmt ∧ (f.func.length > 0 → Ident f.func)

def ColCondPlain (c : ColumnConditional) : Prop := ColNamed c.lhs ∧ RhsPlain c.rhs

def BoundPlain : RangeBound → Prop
  | .column c => ColNamed (rhsCol c.rhs)
  | .field _ => True

mutual
def WherePlain1 : Cond → Prop
  | .bool _ => True
  | .nested _ items => WherePlains items
  | .field f => FieldCondPlain f
  | .column c => ColCondPlain c
  | .between b => ColNamed b.colIdent ∧ BoundPlain b.lower ∧ BoundPlain b.upper
def WherePlains : List Cond → Prop
  | [] => True
  | c :: cs => WherePlain1 c ∧ WherePlains cs
end

def ReadPlain (r : FieldRead) : Prop :=
  ColNamed r.colIdent ∧ Whole r.column.type.nameFmt ∧ Whole r.field.coalesceValue

def WritePlain (w : FieldWrite) : Prop :=
  ColNamed w.colIdent ∧ Whole w.column.type.nameFmt ∧ Ident w.column.name

structure InfoPlain (t : TargetInfo) : Prop where
  reads : ∀ r ∈ t.reads, ReadPlain r
  writes : ∀ w ∈ t.writes, WritePlain w
  pkeys : ∀ w ∈ t.pkeys, WritePlain w
  joins : ∀ l ∈ t.joins, WherePlains (l.map joinCond)
  wher : WherePlains t.wher
  conflict : ∀ c, t.conflict = some c → (∀ x, c.target = some x → TargetPlain x) ∧ ∀ k ∈ c.update, Ident k.name

/-- What is asked of a relation that was loaded. -/
def RelationPlain (r : Relation) : Prop :=
  (∀ c ∈ r.columns, Whole c.type.nameFmt) ∧ ∀ i ∈ r.indexes, Whole i.expression ∧ Whole i.predicate

theorem loadRelation_plain {cat : Catalog} (hc : CatPlain cat) {rid : RelIdent} {rel : Relation}
    (h : loadRelation cat rid = .ok rel) : RelationPlain rel := by
  unfold loadRelation at h
  split at h
  · cases h
  · next r hl =>
    simp only [Res.bind_eq_ok, Res.map_eq_ok] at h
    obtain ⟨cols, h1, inds, h2, rfl⟩ := h
    constructor
    · intro c hcm
      obtain ⟨x, _, hx⟩ := (mapP_ok.1 h1).mem_right c hcm
      unfold loadColumn at hx
      split at hx
      · cases hx
      · next t ht => cases hx; exact hc.types _ _ ht
    · intro i him
      obtain ⟨x, hxm, hx⟩ := (mapP_ok.1 h2).mem_right i him
      unfold loadIndex at hx
      rw [Res.map_eq_ok] at hx
      obtain ⟨e, he, rfl⟩ := hx
      have := hc.indexes _ _ hl x hxm
      exact ⟨this.2 _ he, this.1⟩

structure CheckerPlain (c : Checker) : Prop where
  hcat : CatPlain c.cat
  rel : RelationPlain c.rel
  relMap : ∀ k r, List.lookup k c.relMap = some r → RelationPlain r
  alias : OptIdent c.rid.alias

theorem loadTarget_plain {cat : Catalog} (hc : CatPlain cat) {rid : RelIdent} (hr : RelNamed rid) {c : Checker}
    (h : loadTarget cat rid = .ok c) : CheckerPlain c := by
  simp only [loadTarget, Res.map_eq_ok] at h
  obtain ⟨rel, h, rfl⟩ := h
  have := loadRelation_plain hc h
  refine ⟨hc, this, ?_, hr.2.2⟩
  intro k r hl
  simp only [List.lookup_cons, List.lookup_nil] at hl
  split at hl
  · cases hl; exact this
  · split at hl
    · cases hl; exact this
    · cases hl

theorem loadJoin_plain {c : Checker} (hc : CheckerPlain c) {rid : RelIdent} {r : Checker × Relation}
    (h : loadJoin c rid = .ok r) : CheckerPlain r.1 ∧ RelationPlain r.2 := by
  simp only [loadJoin, Res.map_eq_ok] at h
  obtain ⟨rel, h, rfl⟩ := h
  have := loadRelation_plain hc.hcat h
  refine ⟨⟨hc.hcat, hc.rel, ?_, hc.alias⟩, this⟩
  intro k r hl
  simp only [List.lookup_cons] at hl
  split at hl
  · cases hl; exact this
  · exact hc.relMap _ _ hl

theorem findRelColumn_name {rel : Relation} {n : Bytes} {col : Column} (h : findRelColumn rel n = some col) :
    col ∈ rel.columns ∧ col.name = n :=
  ⟨List.mem_of_find?_eq_some h, by simpa using List.find?_some h⟩

theorem findColumn_whole {c : Checker} (hc : CheckerPlain c) {id : ColIdent} {col : Column}
    (h : findColumn c id = .ok col) : Whole col.type.nameFmt := by
  unfold findColumn at h
  split at h
  · cases h
  · next rel hl =>
    split at h
    · cases h
    · next k hk =>
      cases h
      exact (hc.relMap _ _ hl).1 _ (findRelColumn_name hk).1

/-! ### Conditions -/

theorem rhsPlain_of {rs : RelSpace} : ∀ {r : Rhs}, r.Declared rs → (∀ s ∈ rhsTexts r, Whole s) → RhsPlain r
  | .none, _, _ => trivial
  | .column _, h, _ => h.1
  | .literal _, _, h => h _ (by simp [rhsTexts])

theorem checkColCondOn_plain {rs : RelSpace} {c : Checker} {col : Column} {cc : ColCond} {b : Bool}
    {r : ColumnConditional} (hd : cc.Declared rs) (ht : ∀ s ∈ rhsTexts cc.rhs, Whole s)
    (h : checkColCondOn c col cc b = .ok r) : ColCondPlain r := by
  obtain ⟨_, h1, h2, _⟩ := checkColCond_pred h
  exact ⟨h1 ▸ hd.1.1, h2 ▸ rhsPlain_of hd.2 ht⟩

theorem checkBound_plain {rs : RelSpace} {c : Checker} {col : Column} {wb : BetweenCond} {p : Pred} {b : Bound}
    {r : RangeBound} (hb : b.Declared rs) (h : checkBound c col wb p b = .ok r) : BoundPlain r := by
  cases b with
  | column cid =>
    simp only [checkBound, Res.map_eq_ok] at h
    obtain ⟨x, hx, rfl⟩ := h
    obtain ⟨_, _, h2, _⟩ := checkColCond_pred (mapErr_eq_ok hx)
    simp only [BoundPlain, h2, rhsCol]
    exact hb.1
  | field n t =>
    simp only [checkBound, Res.map_eq_ok] at h
    obtain ⟨x, hx, rfl⟩ := h
    trivial

theorem checkWhereField_plain {rs : RelSpace} {c : Checker} (hc : CheckerPlain c) {f : FieldCond}
    {r : FieldConditional} (hd : Declared rs f.colIdent) (h : checkWhereField c f = .ok r) : FieldCondPlain r := by
  simp only [checkWhereField, Res.bind_eq_ok] at h
  obtain ⟨col, hcol, h⟩ := h
  have hk := checkFieldCond_keeps h
  refine ⟨hk.2.2.2.2.1 ▸ hd.1, hk.2.2.2.2.2 ▸ findColumn_whole hc hcol, ?_⟩
  intro hf
  rw [hk.2.2.2.1] at hf ⊢
  simp only at hf
  simp only [checkFieldCond, Res.map_eq_ok, hf, if_true, checkFieldCondFunc] at h
  obtain ⟨v, hv, _⟩ := h
  split at hv
  · cases hv
  · next hp => exact hc.hcat.funcs _ hp

mutual
theorem checkWhereItem_plain {rs : RelSpace} {c : Checker} (hc : CheckerPlain c) : ∀ (i : WItem) (r : Cond),
    DeclItem rs i → (∀ s ∈ itemTexts i, Whole s) → checkWhereItem c i = .ok r → WherePlain1 r
  | .bool _, r, _, _, h => by cases h; simp [WherePlain1]
  | .nested n items, r, hd, ht, h => by
    simp only [checkWhereItem, Res.map_eq_ok] at h
    obtain ⟨cs, hcs, rfl⟩ := h
    rw [WherePlain1]
    cases hd with
    | nested _ _ hd =>
      rw [itemTexts] at ht
      exact checkWhereItems_plain hc items cs hd ht hcs
  | .column cc, r, hd, ht, h => by
    simp only [checkWhereItem, checkColCond, Res.map_eq_ok, Res.bind_eq_ok] at h
    obtain ⟨x, ⟨_, _, hx⟩, rfl⟩ := h
    rw [WherePlain1]
    cases hd with
    | column _ hd =>
      rw [itemTexts] at ht
      exact checkColCondOn_plain hd ht hx
  | .field f, r, hd, _, h => by
    simp only [checkWhereItem, Res.map_eq_ok] at h
    obtain ⟨x, hx, rfl⟩ := h
    rw [WherePlain1]
    cases hd with
    | field _ hd => exact checkWhereField_plain hc hd hx
  | .between b, r, hd, _, h => by
    simp only [checkWhereItem, checkBetween, Res.map_eq_ok, Res.bind_eq_ok] at h
    obtain ⟨x, ⟨col, _, l, h1, u, h2, rfl⟩, rfl⟩ := h
    rw [WherePlain1]
    cases hd with
    | between _ hd hl hu => exact ⟨hd.1, checkBound_plain hl h1, checkBound_plain hu h2⟩
theorem checkWhereItems_plain {rs : RelSpace} {c : Checker} (hc : CheckerPlain c) : ∀ (is : List WItem)
    (r : List Cond), (∀ i ∈ is, DeclItem rs i) → (∀ s ∈ itemsTexts is, Whole s) → checkWhereItems c is = .ok r →
    WherePlains r
  | [], r, _, _, h => by cases h; simp [WherePlains]
  | i :: is, r, hd, ht, h => by
    simp only [checkWhereItems, Res.map_eq_ok, Res.bind_eq_ok] at h
    obtain ⟨x, hx, xs, hxs, rfl⟩ := h
    rw [WherePlains]
    simp only [itemsTexts, List.mem_append] at ht
    exact ⟨checkWhereItem_plain hc i x (hd i (List.mem_cons_self ..)) (fun s hs => ht s (.inl hs)) hx,
      checkWhereItems_plain hc is xs (fun i hi => hd i (List.mem_cons_of_mem _ hi)) (fun s hs => ht s (.inr hs)) hxs⟩
end

theorem wherePlains_iff : ∀ {l : List Cond}, WherePlains l ↔ ∀ c ∈ l, WherePlain1 c
  | [] => by simp [WherePlains]
  | c :: cs => by simp [WherePlains, wherePlains_iff (l := cs)]

/-! ### Joins -/

theorem mem_conds_of {d : JoinDir} {c : ColCond} (h : .cond c ∈ d.items) : c ∈ d.conds := by
  unfold JoinDir.conds
  rw [List.mem_filterMap]
  exact ⟨_, h, rfl⟩

theorem checkJoinDirs_plain {rs : RelSpace} : ∀ (ds : List JoinDir) (c : Checker)
    (r : Checker × List (List JoinCond)), CheckerPlain c →
    (∀ d ∈ ds, ∀ k ∈ d.conds, k.Declared rs ∧ ∀ s ∈ rhsTexts k.rhs, Whole s) → checkJoinDirs c ds = .ok r →
    CheckerPlain r.1 ∧ ∀ l ∈ r.2, WherePlains (l.map joinCond)
  | [], c, r, hc, _, h => by cases h; exact ⟨hc, by simp⟩
  | d :: ds, c, r, hc, hd, h => by
    simp only [checkJoinDirs, Res.bind_eq_ok, Res.map_eq_ok] at h
    obtain ⟨cr, h1, items, h2, r', h3, rfl⟩ := h
    have hj := loadJoin_plain hc h1
    have ih := checkJoinDirs_plain ds _ _ hj.1 (fun d' hd' => hd d' (List.mem_cons_of_mem _ hd')) h3
    refine ⟨ih.1, ?_⟩
    intro l hl
    rcases List.mem_cons.1 hl with rfl | hl
    · rw [wherePlains_iff]
      intro k hk
      rw [List.mem_map] at hk
      obtain ⟨y, hy, rfl⟩ := hk
      obtain ⟨x, hxm, hx⟩ := (mapP_ok.1 h2).mem_right y hy
      cases x with
      | bool b => cases hx; simp [joinCond, WherePlain1]
      | cond cc =>
        simp only [checkJoinItem, checkColCond, Res.map_eq_ok, Res.bind_eq_ok] at hx
        obtain ⟨z, ⟨_, _, hz⟩, rfl⟩ := hx
        rw [joinCond, WherePlain1]
        have := hd d (List.mem_cons_self ..) cc (mem_conds_of hxm)
        exact checkColCondOn_plain this.1 this.2 hz
    · exact ih.2 l hl

theorem checkJoin_plain {rs : RelSpace} {c : Checker} {j : Option JoinStruct} {r : Checker × List (List JoinCond)}
    (hc : CheckerPlain c)
    (hd : ∀ x, j = some x → ∀ d ∈ x.directives, ∀ k ∈ d.conds, k.Declared rs ∧ ∀ s ∈ rhsTexts k.rhs, Whole s)
    (h : checkJoin c j = .ok r) : CheckerPlain r.1 ∧ ∀ l ∈ r.2, WherePlains (l.map joinCond) := by
  cases j with
  | none => cases h; exact ⟨hc, by simp⟩
  | some j =>
    simp only [checkJoin, Res.bind_eq_ok] at h
    obtain ⟨c', h1, h2⟩ := h
    refine checkJoinDirs_plain (rs := rs) _ _ _ ?_ (hd j rfl) h2
    cases hr : j.relation with
    | none => rw [hr] at h1; cases h1; exact hc
    | some rid =>
      rw [hr] at h1
      simp only [joinBase, Res.map_eq_ok] at h1
      obtain ⟨_, h1, rfl⟩ := h1
      exact (loadJoin_plain hc h1).1

/-! ### Fields -/

theorem checkRead_plain {c : Checker} (hc : CheckerPlain c) {f : FieldInfo} {b : Bool} {l : List FieldRead}
    (hf : ColNamed f.colIdent) (ht : Whole f.coalesceValue) (h : checkRead c f b = .ok l) : ∀ r ∈ l, ReadPlain r := by
  unfold checkRead at h
  split at h
  · split at h
    · cases h
    · cases h; simp
  · next col hcol =>
    rw [Res.map_eq_ok] at h
    obtain ⟨s, _, rfl⟩ := h
    intro r hr
    simp only at hr
    split at hr
    · cases hr
    · rw [List.mem_singleton] at hr
      subst hr
      exact ⟨⟨hc.alias, hf.2⟩, hc.rel.1 _ (findRelColumn_name hcol).1, ht⟩

theorem checkReads_plain {c : Checker} (hc : CheckerPlain c) {fs : List FieldInfo} {strict : FieldInfo → Bool}
    {l : List (List FieldRead)} (hf : ∀ f ∈ fs, ColNamed f.colIdent ∧ Whole f.coalesceValue)
    (h : mapP (fun f => checkRead c f (strict f)) fs = .ok l) : ∀ r ∈ l.flatten, ReadPlain r := by
  intro r hr
  rw [List.mem_flatten] at hr
  obtain ⟨y, hy, hr⟩ := hr
  obtain ⟨x, hxm, hx⟩ := (mapP_ok.1 h).mem_right y hy
  exact checkRead_plain hc (hf x hxm).1 (hf x hxm).2 hx r hr

theorem checkReturn_plain {c : Checker} (hc : CheckerPlain c) {fs : List FieldInfo} {o : Option ColIdentList}
    {l : List FieldRead} (hf : ∀ f ∈ fs, ColNamed f.colIdent ∧ Whole f.coalesceValue)
    (h : checkReturn c fs o = .ok l) : ∀ r ∈ l, ReadPlain r := by
  cases o with
  | none => cases h; simp
  | some o =>
    simp only [checkReturn] at h
    split at h
    · rw [Res.map_eq_ok] at h
      obtain ⟨l, h, rfl⟩ := h
      exact checkReads_plain hc (strict := fun _ => false) hf h
    · simp only [Res.bind_eq_ok, Res.map_eq_ok] at h
      obtain ⟨sel, h1, l, h, rfl⟩ := h
      refine checkReads_plain hc (strict := fun _ => true) (fun f hm => ?_) h
      obtain ⟨x, _, hx⟩ := (mapP_ok.1 h1).mem_right f hm
      unfold findQueryField at hx
      split at hx
      · cases hx
      · next g hg =>
        rw [Res.map_eq_ok] at hx
        obtain ⟨_, _, rfl⟩ := hx
        exact hf _ (List.mem_of_find?_eq_some hg)

theorem checkWrite_plain {c : Checker} (hc : CheckerPlain c) {f : FieldInfo} {i : Nat} {w : FieldWrite}
    (hf : ColNamed f.colIdent) (h : checkWrite c i f = .ok (some w)) : WritePlain w := by
  obtain ⟨_, _, h3, h4⟩ := checkWrite_ok h
  have := findRelColumn_name h3
  exact ⟨h4 ▸ ⟨hc.alias, hf.2⟩, hc.rel.1 _ this.1, this.2 ▸ hf.2⟩

theorem checkRel_plain {c : Checker} (hc : CheckerPlain c) {q : Query} {rw' : List FieldRead × WriteStep}
    (hf : ∀ f ∈ q.rel.type.fields, ColNamed f.colIdent ∧ Whole f.coalesceValue) (h : checkRel c q = .ok rw') :
    (∀ r ∈ rw'.1, ReadPlain r) ∧ (∀ w ∈ rw'.2.writes, WritePlain w) ∧ ∀ w ∈ rw'.2.pkeys, WritePlain w := by
  by_cases hw : Writing q
  · obtain ⟨l, hl, h1, h2, h3⟩ := checkRel_writing hw h
    have step : ∀ y ∈ l, (∀ w ∈ y.writes, WritePlain w) ∧ ∀ w ∈ y.pkeys, WritePlain w := by
      intro y hy
      obtain ⟨x, hx, hxy⟩ := hl.mem_right y hy
      have hm : x.1 ∈ q.rel.type.fields := by
        rw [List.mem_zipIdx_iff_getElem?] at hx
        exact List.mem_of_getElem? hx
      rcases checkRelWrite_ok hxy with ⟨_, _, rfl⟩ | ⟨w', hw', rfl⟩
      · exact ⟨by simp, by simp⟩
      · have := checkWrite_plain hc (hf _ hm).1 hw'
        constructor
        · intro w hw
          simp only at hw
          split at hw
          · cases hw
          · rw [List.mem_singleton] at hw; exact hw ▸ this
        · intro w hw
          simp only at hw
          split at hw
          · rw [List.mem_singleton] at hw; exact hw ▸ this
          · cases hw
    refine ⟨by simp [h3], ?_, ?_⟩
    · intro w hw
      rw [h1, List.mem_flatten] at hw
      obtain ⟨ws, hws, hw⟩ := hw
      rw [List.mem_map] at hws
      obtain ⟨y, hy, rfl⟩ := hws
      exact (step y hy).1 w hw
    · intro w hw
      rw [h2, List.mem_flatten] at hw
      obtain ⟨ws, hws, hw⟩ := hw
      rw [List.mem_map] at hws
      obtain ⟨y, hy, rfl⟩ := hws
      exact (step y hy).2 w hw
  · have h2 := checkRel_not_writing hw h
    refine ⟨?_, by simp [h2], by simp [h2]⟩
    unfold checkRel at h
    split at h
    · cases h; simp
    · split at h
      · simp only [checkRelReads, Res.map_eq_ok] at h
        obtain ⟨_, ⟨l, h, rfl⟩, rfl⟩ := h
        exact checkReads_plain hc hf h
      · split at h
        · rw [Res.map_eq_ok] at h
          obtain ⟨_, _, rfl⟩ := h
          simp
        · cases h; simp

/-! ### On conflict -/

theorem checkConflict_plain {c : Checker} (hc : CheckerPlain c) {ws : List FieldWrite}
    (hw : ∀ w ∈ ws, WritePlain w) {oc : Option OnConflict} (hn : ∀ x, oc = some x → ConflictNamed x)
    {r : Option ConflictInfo} (h : checkConflict c ws oc = .ok r) : ∀ i, r = some i →
    (∀ x, i.target = some x → TargetPlain x) ∧ ∀ k ∈ i.update, Ident k.name := by
  cases oc with
  | none => cases h; simp
  | some oc =>
    have hn := hn oc rfl
    simp only [checkConflict, Res.bind_eq_ok, Res.map_eq_ok] at h
    obtain ⟨t1, h1, t2, h2, t3, h3, u, h4, rfl⟩ := h
    intro i hi
    cases hi
    have p1 : ∀ x, t1 = some x → TargetPlain x := by
      unfold targetStep at h1
      split at h1
      · cases h1; simp
      · simp only [conflictColumns, Res.map_eq_ok, Res.bind_eq_ok] at h1
        obtain ⟨y, ⟨_, _, hy⟩, rfl⟩ := h1
        intro x hx
        cases hx
        split at hy
        · next i hi => cases hy; exact hc.rel.2 i (List.mem_of_find?_eq_some hi)
        · split at hy <;> cases hy
    have p2 : ∀ x, t2 = some x → TargetPlain x := by
      unfold targetStep at h2
      split at h2
      · cases h2; exact p1
      · simp only [conflictIndex, Res.map_eq_ok] at h2
        obtain ⟨y, hy, rfl⟩ := h2
        intro x hx
        cases hx
        split at hy
        · cases hy
        · next i hi =>
          split at hy
          · cases hy; exact hc.rel.2 i (List.mem_of_find?_eq_some hi)
          · cases hy
    have p3 : ∀ x, t3 = some x → TargetPlain x := by
      unfold targetStep at h3
      split at h3
      · cases h3; exact p2
      · next n hc' =>
        simp only [conflictConstraint, Res.map_eq_ok] at h3
        obtain ⟨y, hy, rfl⟩ := h3
        intro x hx
        cases hx
        split at hy
        · cases hy
        · next k hk =>
          split at hy
          · cases hy
            have : k.name = n := by simpa using List.find?_some hk
            simp only [TargetPlain, this]
            exact hn.1 n hc'
          · cases hy
    refine ⟨p3, ?_⟩
    unfold conflictUpdate at h4
    split at h4
    · cases h4; simp
    · next l hl =>
      split at h4
      · cases h4
        intro k hk
        rw [List.mem_map] at hk
        obtain ⟨w, hwm, rfl⟩ := hk
        exact (hw w hwm).2.2
      · intro k hk
        obtain ⟨x, hxm, hx⟩ := (mapP_ok.1 h4).mem_right k hk
        unfold relColumn at hx
        split at hx
        · cases hx
        · next col hcol =>
          cases hx
          rw [(findRelColumn_name hcol).2]
          exact (hn.2 l hl x hxm).2

/-! ### The query -/

theorem checkQuery_plain {cat : Catalog} (hc : CatPlain cat) {q : Query} (hn : Named q) {rs : RelSpace}
    (hf : Fits q rs) (ht : ∀ s ∈ queryTexts q, Whole s) {t : TargetInfo} (h : checkQuery cat q = .ok t) :
    InfoPlain t := by
  simp only [queryTexts, List.mem_append] at ht
  have tw : ∀ s ∈ itemsTexts ((q.wher.map (·.items)).getD []), Whole s := fun s hs => ht s (.inl (.inl (.inl hs)))
  have tj : ∀ s ∈ (q.join.map joinTexts).getD [], Whole s := fun s hs => ht s (.inl (.inl (.inr hs)))
  have tf : ∀ f ∈ q.rel.type.fields, ColNamed f.colIdent ∧ Whole f.coalesceValue := fun f hm =>
    ⟨hn.fields f hm, ht _ (.inl (.inr (List.mem_map_of_mem hm)))⟩
  have tr : ∀ r, q.result = some r → ∀ f ∈ r.2.fields, ColNamed f.colIdent ∧ Whole f.coalesceValue := by
    intro r hr f hm
    refine ⟨hn.result r hr f hm, ht _ (.inr ?_)⟩
    rw [hr]
    exact List.mem_map_of_mem (f := fun f : FieldInfo => f.coalesceValue) hm
  simp only [checkQuery, Res.bind_eq_ok] at h
  obtain ⟨c0, hc0, ⟨c1, joins⟩, hj, h⟩ := h
  have p0 := loadTarget_plain hc hn.rel hc0
  obtain ⟨p1, pj⟩ := checkJoin_plain (rs := rs) p0 (by
    intro x hx d hd k hk
    refine ⟨((hf.join x hx).2 d hd k hk).2.2, fun s hs => tj s ?_⟩
    rw [hx]
    simp only [Option.map_some, Option.getD_some, joinTexts, List.mem_flatMap]
    exact ⟨d, hd, k, hk, hs⟩) hj
  have p : CheckerPlain { c1 with force := q.force } := ⟨p1.hcat, p1.rel, p1.relMap, p1.alias⟩
  simp only [checkRest, Res.bind_eq_ok, Res.map_eq_ok] at h
  obtain ⟨_, _, _, _, _, _, r1, h1, r2, h2, rw', h3, wh, h4, cf, h5, rfl⟩ := h
  have a1 := checkReturn_plain p tf h1
  have a2 : ∀ r ∈ r2, ReadPlain r := by
    cases hr : q.result with
    | none => rw [hr] at h2; cases h2; simp
    | some r =>
      rw [hr] at h2
      simp only [checkResult, Res.map_eq_ok] at h2
      obtain ⟨l, h, rfl⟩ := h2
      exact checkReads_plain p (strict := fun _ => true) (tr r hr) h
  obtain ⟨a3, a4, a5⟩ := checkRel_plain p tf h3
  refine ⟨?_, a4, a5, pj, ?_, checkConflict_plain p a4 hn.conflict h5⟩
  · intro r hr
    simp only [List.mem_append] at hr
    rcases hr with (hr | hr) | hr
    · exact a1 r hr
    · exact a2 r hr
    · exact a3 r hr
  · refine checkWhereItems_plain (rs := rs) p _ _ ?_ tw h4
    intro i hi
    cases hw : q.wher with
    | none => rw [hw] at hi; simp at hi
    | some w =>
      rw [hw] at hi
      exact (hf.wher w hw i hi).2

end Verif.Generator.Lex
