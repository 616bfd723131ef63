import Verif.Postgres.PropsConflict
import Verif.Analysis.PropsCrash
import Verif.Analysis.PropsQuery2

/- C99, second part: neither does the type checker crash. -/
namespace Verif.Postgres
open Verif.Analysis

/-! ### What the checker takes for granted -/

/-- The type of the elements of an array is known. -/
def TypeOk (cat : Catalog) (t : PgType) : Prop := t.isArray = true → (cat.type t.elem).isSome = true

/-- What holds of the catalogs of databases. -/
structure CatOk (cat : Catalog) : Prop where
  /-- The types of the elements of arrays are in the catalog. -/
  arrays : ∀ t ∈ cat.types, TypeOk cat t
  /-- So are the types of literals. -/
  literals : ∀ l o, cat.litOid l = some o → (cat.type o).isSome = true
  /-- No definition of an index ends in a quote: it ends in a parenthesis or a name. -/
  indexes : ∀ r ∈ cat.rels, ∀ i ∈ r.2.indexes, i.definition.getLast? ≠ some '\''

theorem CatOk.type {cat : Catalog} (h : CatOk cat) {o : Nat} {t : PgType} (e : cat.type o = some t) : TypeOk cat t :=
  h.arrays t (List.mem_of_find?_eq_some e)

theorem refuseIf_np (c : Bool) (e : DbErr) : refuseIf c e ≠ .panic := by unfold refuseIf; split <;> simp

theorem mapP_np {ε α β : Type} {f : α → Res ε β} : ∀ {l : List α}, (∀ x ∈ l, f x ≠ .panic) → mapP f l ≠ .panic
  | [], _ => by simp [mapP]
  | x :: xs, h => by
    rw [mapP]
    exact bind_np (h x (.head _)) fun _ _ => map_np (mapP_np fun y hy => h y (.tail _ hy))

/-! ### Loading relations -/

theorem suffix_last {r s : Bytes} {q : Char} (h : r <:+ s) (e : s.getLast? ≠ some q) : r.getLast? ≠ some q := by
  obtain ⟨t, rfl⟩ := h
  rw [List.getLast?_append] at e
  intro hr
  rw [hr] at e
  exact e rfl

theorem firstSplit_suffix {c : Char} : ∀ {s a b : Bytes}, firstSplit c s = some (a, b) → b <:+ s
  | [], _, _, h => by cases h
  | d :: ds, a, b, h => by
    rw [firstSplit] at h
    split at h
    · cases h; exact List.suffix_cons _ _
    · rw [Option.map_eq_some_iff] at h
      obtain ⟨p, hp, e⟩ := h
      cases e
      exact (firstSplit_suffix hp).trans (List.suffix_cons _ _)

theorem afterUsing_suffix {all : Bytes} : ∀ {s : Bytes}, s <:+ all → afterUsing all s <:+ all
  | [], _ => by rw [afterUsing]; exact List.suffix_refl _
  | c :: cs, h => by
    rw [afterUsing]
    cases hu : usingHere (c :: cs) with
    | some r =>
      unfold usingHere at hu
      split at hu
      · cases hu
        exact (List.drop_suffix _ _).trans h
      · cases hu
    | none => exact afterUsing_suffix ((List.suffix_cons _ _).trans h)

theorem ixStep_fault {st : IxSt} {c : Char} {cs : Bytes} (h : ixStep st c cs = .fault) : c = '\'' ∧ cs = [] := by
  unfold ixStep at h
  split at h
  · split at h
    · cases h
    · split at h
      · split at h <;> cases h
      · split at h <;> cases h
  · split at h
    · rename_i hc
      cases cs with
      | nil => exact ⟨hc, rfl⟩
      | cons d ds =>
        simp only at h
        split at h
        · cases h
        · split at h <;> cases h
    · cases h

theorem ixLoop_np : ∀ (s : Bytes) (st : IxSt), s.getLast? ≠ some '\'' → ixLoop st s ≠ .panic
  | [], _, _ => by simp [ixLoop]
  | c :: cs, st, h => by
    rw [ixLoop]
    split
    · simp
    · rename_i hf
      obtain ⟨rfl, rfl⟩ := ixStep_fault hf
      exact absurd rfl h
    · refine ite_np (fun _ => ok_np _) fun hl => map_np (ixLoop_np cs _ ?_)
      exact suffix_last (List.suffix_cons c cs) h

theorem parseIndexExpr_np {s : Bytes} (h : s.getLast? ≠ some '\'') : parseIndexExpr s ≠ .panic := by
  unfold parseIndexExpr
  split
  · simp
  · rename_i a r hr
    exact ixLoop_np _ _ (suffix_last ((firstSplit_suffix hr).trans (afterUsing_suffix (List.suffix_refl _))) h)

/-- The types of the columns of a relation. -/
def RelOk (cat : Catalog) (r : Relation) : Prop := ∀ c ∈ r.columns, TypeOk cat c.type

theorem loadColumn_ok {cat : Catalog} (h : CatOk cat) {rid : RelIdent} {k : Char} {r : RawCol} {c : Column}
    (e : loadColumn cat rid k r = .ok c) : TypeOk cat c.type := by
  unfold loadColumn at e
  split at e
  · cases e
  · rename_i t ht
    cases e
    exact h.type ht

theorem pairwise2_right {α β : Type} {r : α → β → Prop} : ∀ {xs : List α} {ys : List β}, Pairwise2 r xs ys →
    ∀ y ∈ ys, ∃ x ∈ xs, r x y
  | _, _, .nil, _, h => by cases h
  | _, _, .cons a b, y, h => by
    cases h with
    | head => exact ⟨_, .head _, a⟩
    | tail _ h =>
      obtain ⟨x, hx, hr⟩ := pairwise2_right b y h
      exact ⟨x, .tail _ hx, hr⟩

theorem lookup_mem' {α : Type} {k : Bytes} {v : α} : ∀ {l : List (Bytes × α)}, List.lookup k l = some v → ∃ k', (k', v) ∈ l
  | (k', v') :: l, h => by
    rw [List.lookup_cons] at h
    split at h
    · cases h; exact ⟨k', .head _⟩
    · obtain ⟨j, hj⟩ := lookup_mem' h
      exact ⟨j, .tail _ hj⟩

theorem loadRelation_np {cat : Catalog} (h : CatOk cat) (rid : RelIdent) :
    loadRelation cat rid ≠ .panic ∧ ∀ r, loadRelation cat rid = .ok r → RelOk cat r := by
  unfold loadRelation
  cases hl : List.lookup (qualifiedName rid) cat.rels with
  | none => simp
  | some raw =>
    simp only
    obtain ⟨k, hk⟩ := lookup_mem' hl
    refine ⟨bind_np (mapP_np fun c _ => ?_) fun _ _ => map_np (mapP_np fun i hi => ?_), ?_⟩
    · unfold loadColumn
      split <;> simp
    · exact map_np (parseIndexExpr_np (h.indexes _ hk i hi))
    · intro r e c hc
      rw [Res.bind_eq_ok] at e
      obtain ⟨cols, hcols, e⟩ := e
      rw [Res.map_eq_ok] at e
      obtain ⟨inds, _, rfl⟩ := e
      obtain ⟨x, _, hx⟩ := pairwise2_right (mapP_ok.1 hcols) c hc
      exact loadColumn_ok h hx

/-! ### Columns -/

structure CkOk (c : Checker) : Prop where
  cat : CatOk c.cat
  rel : RelOk c.cat c.rel
  map : ∀ k r, (k, r) ∈ c.relMap → RelOk c.cat r

theorem CkOk.force {c : Checker} (h : CkOk c) (l : Option ColIdentList) : CkOk { c with force := l } :=
  ⟨h.cat, h.rel, h.map⟩

theorem loadTarget_np {cat : Catalog} (h : CatOk cat) (rid : RelIdent) :
    loadTarget cat rid ≠ .panic ∧ ∀ c, loadTarget cat rid = .ok c → CkOk c := by
  obtain ⟨h1, h2⟩ := loadRelation_np h rid
  unfold loadTarget
  refine ⟨map_np h1, ?_⟩
  intro c e
  rw [Res.map_eq_ok] at e
  obtain ⟨r, hr, rfl⟩ := e
  refine ⟨h, h2 r hr, ?_⟩
  intro k r' hm
  simp only [List.mem_cons, Prod.mk.injEq, List.not_mem_nil, or_false] at hm
  rcases hm with hm | hm
  · rw [hm.2]; exact h2 r hr
  · rw [hm.2]; exact h2 r hr

theorem loadJoin_np {c : Checker} (h : CkOk c) (rid : RelIdent) :
    loadJoin c rid ≠ .panic ∧ ∀ x, loadJoin c rid = .ok x → CkOk x.1 ∧ RelOk x.1.cat x.2 := by
  obtain ⟨h1, h2⟩ := loadRelation_np h.cat rid
  unfold loadJoin
  refine ⟨map_np h1, ?_⟩
  intro x e
  rw [Res.map_eq_ok] at e
  obtain ⟨r, hr, rfl⟩ := e
  refine ⟨⟨h.cat, h.rel, ?_⟩, h2 r hr⟩
  intro k r' hm
  rcases List.mem_cons.1 hm with hm | hm
  · cases hm; exact h2 r hr
  · exact h.map k r' hm

theorem findRelColumn_ok {cat : Catalog} {r : Relation} (h : RelOk cat r) {n : Bytes} {col : Column}
    (e : findRelColumn r n = some col) : TypeOk cat col.type := h col (List.mem_of_find?_eq_some e)

theorem findColumn_np {c : Checker} (h : CkOk c) (id : ColIdent) :
    findColumn c id ≠ .panic ∧ ∀ col, findColumn c id = .ok col → TypeOk c.cat col.type := by
  unfold findColumn
  cases hl : List.lookup id.qualifier c.relMap with
  | none => simp
  | some r =>
    simp only
    obtain ⟨k, hk⟩ := lookup_mem' hl
    cases hc : findRelColumn r id.name with
    | none => simp
    | some col =>
      refine ⟨by simp, ?_⟩
      intro col' e
      cases e
      exact findRelColumn_ok (h.map k r hk) hc

theorem relColumn_np {cat : Catalog} {r : Relation} (h : RelOk cat r) (id : ColIdent) :
    relColumn r id ≠ .panic ∧ ∀ col, relColumn r id = .ok col → TypeOk cat col.type := by
  unfold relColumn
  cases hc : findRelColumn r id.name with
  | none => simp
  | some col =>
    refine ⟨by simp, ?_⟩
    intro col' e
    cases e
    exact findRelColumn_ok h hc

/-! ### Converters -/

theorem isLength1_np {cat : Catalog} {col : Column} (h : TypeOk cat col.type) : isLength1 cat col ≠ .panic := by
  unfold isLength1
  by_cases ha : col.type.isArray = true
  · have := h ha
    cases ht : cat.type col.type.elem with
    | none => rw [ht] at this; cases this
    | some t => simp [ha, ht]
  · simp [ha]

theorem tableConv_np {cat : Catalog} {col : Column} (h : TypeOk cat col.type) (t : TypeInfo) (pick : CompEntry → Bytes)
    (e : DbErr) : tableConv cat col t pick e ≠ .panic := by
  unfold tableConv
  refine bind_np (isLength1_np h) fun _ _ => ?_
  split <;> simp

theorem docConv_np (a i : Bool) (t : TypeInfo) (c : Bytes) (e : DbErr) : docConv a i t c e ≠ .panic := by
  unfold docConv
  np

theorem readConv_np {cat : Catalog} {col : Column} (h : TypeOk cat col.type) (f : FieldInfo) :
    readConv cat f col ≠ .panic := by
  unfold readConv
  have h1 := tableConv_np h f.type (·.scanner) .columnFieldTypeRead
  have h2 := docConv_np
  repeat' (first | exact h1 | exact docConv_np _ _ _ _ _ | exact ok_np _ | exact err_np _ | (apply ite_np <;> intro _))

theorem writeConv_np {cat : Catalog} {col : Column} (h : TypeOk cat col.type) (f : FieldInfo) :
    writeConv cat f col ≠ .panic := by
  unfold writeConv
  have h1 := tableConv_np h f.type (·.valuer) .columnFieldTypeWrite
  repeat' (first | exact h1 | exact docConv_np _ _ _ _ _ | exact ok_np _ | exact err_np _ | (apply ite_np <;> intro _))

theorem checkRead_np {c : Checker} (h : CkOk c) (f : FieldInfo) (s : Bool) : checkRead c f s ≠ .panic := by
  unfold checkRead
  split
  · split <;> simp
  · rename_i col hc
    exact map_np (readConv_np (findRelColumn_ok h.rel hc) f)

theorem checkWrite_np {c : Checker} (h : CkOk c) (i : Nat) (f : FieldInfo) : checkWrite c i f ≠ .panic := by
  unfold checkWrite
  split
  · simp
  · rename_i col hc
    exact bind_np (refuseIf_np _ _) fun _ _ => map_np (writeConv_np (findRelColumn_ok h.rel hc) f)

theorem checkFieldFilter_np {c : Checker} (h : CkOk c) (f : FieldInfo) : checkFieldFilter c f ≠ .panic := by
  unfold checkFieldFilter
  split
  · simp
  · split
    · simp
    · rename_i col hc
      exact map_np (writeConv_np (findRelColumn_ok h.rel hc) f)

/-! ### Comparisons -/

theorem rhsType_np {cat : Catalog} (p : Option Pred) (q : Option Quant) {t : PgType} (h : TypeOk cat t) :
    rhsType cat (some t) p q ≠ .panic ∧ rhsType cat (some t) p q ≠ .ok none := by
  unfold rhsType
  split
  · simp only
    split
    · rename_i ha
      have := h ha
      cases ht : cat.type t.elem with
      | none => rw [ht] at this; cases this
      | some u => simp
    · split <;> simp
  · simp

theorem checkComparison_np {cat : Catalog} (l : PgType) (p : Option Pred) (q : Option Quant) {t : PgType}
    (h : TypeOk cat t) : checkComparison cat l (some t) p q ≠ .panic := by
  obtain ⟨h1, h2⟩ := rhsType_np p q h
  unfold checkComparison
  refine bind_np h1 fun r hr => ?_
  cases r with
  | none => exact absurd hr h2
  | some u => exact refuseIf_np _ _

theorem condColType_np (cat : Catalog) (f : FieldConditional) : condColType cat f ≠ .panic := by
  unfold condColType
  split
  · split
    · simp
    · split <;> simp
  · simp

theorem procPair_np {cat : Catalog} (h : CatOk cat) (f : FieldConditional) (l r : Proc) :
    procPair cat f l r ≠ .panic := by
  unfold procPair
  split
  · rename_i lt rt hlt hrt
    have := checkComparison_np lt f.pred f.quant (h.type hrt)
    cases hc : checkComparison cat lt (some rt) f.pred f.quant with
    | ok _ => simp only; split <;> simp
    | err _ => simp
    | panic => exact absurd hc this
  · simp

theorem findPair_np (cat : Catalog) (f : FieldConditional) : ∀ l, findPair cat f l ≠ .panic
  | [] => by simp [findPair]
  | (a, b) :: ps => by
    rw [findPair]
    split
    · split
      · simp
      · exact findPair_np cat f ps
    · exact findPair_np cat f ps

theorem checkFieldCond_np {cat : Catalog} (h : CatOk cat) {f : FieldConditional} (hf : TypeOk cat f.column.type) :
    checkFieldCond cat f ≠ .panic := by
  unfold checkFieldCond
  refine map_np (ite_np (fun _ => ?_) fun _ => ?_)
  · unfold checkFieldCondFunc
    refine ite_np (fun _ => err_np _) fun _ => bind_np ?_ fun l _ => findPair_np cat f l
    unfold procPairs
    exact map_np (mapP_np fun l _ => map_np (mapP_np fun r _ => procPair_np h f l r))
  · unfold checkFieldCondPlain
    refine bind_np (condColType_np cat f) fun t _ => bind_np (ite_np (fun _ => map_np (isLength1_np hf))
      fun _ => ok_np _) fun d _ => ?_
    split
    · simp
    · split <;> simp

/-- The right-hand side is there. -/
theorem checkRhs_np {c : Checker} (h : CkOk c) {r : Rhs} (hn : r ≠ .none) (hf : r.Filled) :
    checkRhs c r ≠ .panic ∧ ∀ x, checkRhs c r = .ok x → ∃ t, x.2 = some t ∧ TypeOk c.cat t := by
  cases r with
  | none => exact absurd rfl hn
  | column cid =>
    have hl : cid.name.length > 0 := List.length_pos_iff.2 hf
    obtain ⟨h1, h2⟩ := findColumn_np h cid
    unfold checkRhs
    simp only [hl, if_true]
    refine ⟨map_np h1, ?_⟩
    intro x e
    rw [Res.map_eq_ok] at e
    obtain ⟨col, hcol, rfl⟩ := e
    exact ⟨_, rfl, h2 col hcol⟩
  | literal s =>
    have hl : s.length > 0 := List.length_pos_iff.2 hf
    unfold checkRhs
    simp only [hl, if_true]
    unfold typeOfLiteral
    cases ho : c.cat.litOid s with
    | none => simp [Res.map]
    | some o =>
      have := h.cat.literals s o ho
      cases ht : c.cat.type o with
      | none => rw [ht] at this; cases this
      | some t =>
        refine ⟨by simp [Res.map], ?_⟩
        intro x e
        simp only [Res.map, Res.ok.injEq] at e
        exact ⟨t, by rw [← e]; exact ht, h.cat.type ht⟩

theorem checkColCondOn_np {c : Checker} (h : CkOk c) (col : Column) {cc : ColCond}
    (hs : predIs Pred.isUnary cc.pred = false → cc.rhs ≠ .none ∧ cc.rhs.Filled) (w : Bool) :
    checkColCondOn c col cc w ≠ .panic := by
  unfold checkColCondOn
  by_cases hu : predIs Pred.isUnary cc.pred = true
  · rw [if_pos hu]
    cases hp : cc.pred with
    | none => rw [hp] at hu; cases hu
    | some p =>
      simp only
      refine map_np ?_
      unfold checkUnary
      exact bind_np (refuseIf_np _ _) fun _ _ => refuseIf_np _ _
  · rw [if_neg hu]
    obtain ⟨h1, h2⟩ := hs (by simpa using hu)
    obtain ⟨h3, h4⟩ := checkRhs_np h h1 h2
    refine bind_np h3 fun x hx => map_np ?_
    obtain ⟨t, ht, hok⟩ := h4 x hx
    rw [ht]
    exact checkComparison_np _ _ _ hok

theorem sound_rhs {cc : ColCond} (h : cc.Sound) :
    predIs Pred.isUnary cc.pred = false → cc.rhs ≠ .none ∧ cc.rhs.Filled := by
  obtain ⟨p, hp, h1, _, h2⟩ := h
  intro hu
  rw [hp] at hu
  refine ⟨fun e => ?_, h2⟩
  rw [show predIs Pred.isUnary (some p) = p.isUnary from rfl, h1.2 e] at hu
  cases hu

theorem mapErr_np {α : Type} (f : DbErr → DbErr) {r : P α} (h : r ≠ .panic) : mapErr f r ≠ .panic := by
  cases r with
  | ok a => simp [mapErr]
  | err e => simp [mapErr]
  | panic => exact absurd rfl h

theorem declared_name {rs : RelSpace} {c : ColIdent} (h : Declared rs c) : c.name ≠ [] := by
  obtain ⟨⟨_, a, as, e, _⟩, _⟩ := h
  simp [e]

theorem checkBound_np {c : Checker} (h : CkOk c) {rs : RelSpace} {col : Column} (hc : TypeOk c.cat col.type)
    (wb : BetweenCond) {p : Pred} (hp : p.isUnary = false) {b : Bound} (hb : b.Declared rs) :
    checkBound c col wb p b ≠ .panic := by
  cases b with
  | column cid =>
    refine map_np (mapErr_np _ (checkColCondOn_np h col (fun _ => ⟨by simp, ?_⟩) _))
    exact declared_name (c := cid) hb
  | field n t => exact map_np (mapErr_np _ (checkFieldCond_np h.cat hc))

mutual
theorem checkWhereItem_np {c : Checker} (h : CkOk c) (rs : RelSpace) : ∀ (i : WItem), SoundItem i → DeclItem rs i →
    checkWhereItem c i ≠ .panic
  | .bool b, _, _ => by simp [checkWhereItem]
  | .nested n l, hs, hd => by
    rw [checkWhereItem]
    cases hs with
    | nested _ _ hs =>
      cases hd with
      | nested _ _ hd => exact map_np (checkWhereItems_np h rs l hs hd)
  | .column cc, hs, _ => by
    rw [checkWhereItem]
    cases hs with
    | column _ hs =>
      unfold checkColCond
      exact map_np (bind_np (findColumn_np h _).1 fun col _ => checkColCondOn_np h col (sound_rhs hs) _)
  | .field f, _, _ => by
    rw [checkWhereItem]
    unfold checkWhereField
    exact map_np (bind_np (findColumn_np h _).1 fun col hcol => checkFieldCond_np h.cat ((findColumn_np h _).2 col hcol))
  | .between b, _, hd => by
    rw [checkWhereItem]
    cases hd with
    | between _ _ hl hu =>
      unfold checkBetween
      refine map_np (bind_np (findColumn_np h _).1 fun col hcol => ?_)
      have ht := (findColumn_np h _).2 col hcol
      exact bind_np (checkBound_np h ht _ (by split <;> rfl) hl) fun _ _ =>
        map_np (checkBound_np h ht _ (by split <;> rfl) hu)
theorem checkWhereItems_np {c : Checker} (h : CkOk c) (rs : RelSpace) : ∀ (l : List WItem), (∀ i ∈ l, SoundItem i) →
    (∀ i ∈ l, DeclItem rs i) → checkWhereItems c l ≠ .panic
  | [], _, _ => by simp [checkWhereItems]
  | i :: is, hs, hd => by
    rw [checkWhereItems]
    exact bind_np (checkWhereItem_np h rs i (hs i (.head _)) (hd i (.head _))) fun _ _ =>
      map_np (checkWhereItems_np h rs is (fun j hj => hs j (.tail _ hj)) fun j hj => hd j (.tail _ hj))
end

/-! ### Joins and conflicts -/

theorem checkJoinDirs_np : ∀ (ds : List JoinDir) {c : Checker}, CkOk c → (∀ d ∈ ds, ∀ cc ∈ d.conds, cc.Sound) →
    checkJoinDirs c ds ≠ .panic ∧ ∀ x, checkJoinDirs c ds = .ok x → CkOk x.1
  | [], c, h, _ => ⟨by simp [checkJoinDirs], by intro x e; rw [checkJoinDirs] at e; cases e; exact h⟩
  | d :: ds, c, h, hs => by
    obtain ⟨h1, h2⟩ := loadJoin_np h d.relIdent
    rw [checkJoinDirs]
    refine ⟨bind_np h1 fun cr hcr => bind_np (mapP_np fun i hi => ?_) fun items _ => map_np ?_, ?_⟩
    · obtain ⟨h3, h4⟩ := h2 cr hcr
      cases i with
      | bool b => simp [checkJoinItem]
      | cond cc =>
        have hcc := hs d (.head _) cc (by
          unfold JoinDir.conds
          exact List.mem_filterMap.2 ⟨_, hi, rfl⟩)
        refine map_np ?_
        unfold checkColCond
        exact bind_np (relColumn_np h4 _).1 fun col _ => checkColCondOn_np h3 col (sound_rhs hcc) _
    · exact (checkJoinDirs_np ds (h2 cr hcr).1 fun d' hd' => hs d' (.tail _ hd')).1
    · intro x e
      rw [Res.bind_eq_ok] at e
      obtain ⟨cr, hcr, e⟩ := e
      rw [Res.bind_eq_ok] at e
      obtain ⟨items, _, e⟩ := e
      rw [Res.map_eq_ok] at e
      obtain ⟨y, hy, rfl⟩ := e
      exact (checkJoinDirs_np ds (h2 cr hcr).1 fun d' hd' => hs d' (.tail _ hd')).2 y hy

theorem joinBase_np {c : Checker} (h : CkOk c) (r : Option RelIdent) :
    joinBase c r ≠ .panic ∧ ∀ x, joinBase c r = .ok x → CkOk x := by
  cases r with
  | none => exact ⟨by simp [joinBase], by intro x e; rw [joinBase] at e; cases e; exact h⟩
  | some rid =>
    obtain ⟨h1, h2⟩ := loadJoin_np h rid
    rw [joinBase]
    refine ⟨map_np h1, ?_⟩
    intro x e
    rw [Res.map_eq_ok] at e
    obtain ⟨y, hy, rfl⟩ := e
    exact (h2 y hy).1

theorem checkJoin_np {c : Checker} (h : CkOk c) {j : Option JoinStruct}
    (hs : ∀ j', j = some j' → ∀ d ∈ j'.directives, ∀ cc ∈ d.conds, cc.Sound) :
    checkJoin c j ≠ .panic ∧ ∀ x, checkJoin c j = .ok x → CkOk x.1 := by
  cases j with
  | none => exact ⟨by simp [checkJoin], by intro x e; rw [checkJoin] at e; cases e; exact h⟩
  | some j =>
    obtain ⟨h1, h2⟩ := joinBase_np h j.relation
    rw [checkJoin]
    refine ⟨bind_np h1 fun c' hc' => (checkJoinDirs_np _ (h2 c' hc') (hs j rfl)).1, ?_⟩
    intro x e
    rw [Res.bind_eq_ok] at e
    obtain ⟨c', hc', e⟩ := e
    exact (checkJoinDirs_np _ (h2 c' hc') (hs j rfl)).2 x e

theorem targetStep_np {α : Type} {f : α → P ConflictTarget} (h : ∀ a, f a ≠ .panic) (o : Option α)
    (t : Option ConflictTarget) : targetStep f o t ≠ .panic := by
  cases o with
  | none => simp [targetStep]
  | some a => exact map_np (h a)

theorem checkConflict_np {c : Checker} (h : CkOk c) (ws : List FieldWrite) (oc : Option OnConflict) :
    checkConflict c ws oc ≠ .panic := by
  cases oc with
  | none => simp [checkConflict]
  | some oc =>
    rw [checkConflict]
    refine bind_np (targetStep_np (fun cids => ?_) _ _) fun _ _ => bind_np (targetStep_np (fun n => ?_) _ _)
      fun _ _ => bind_np (targetStep_np (fun n => ?_) _ _) fun _ _ => map_np ?_
    · unfold conflictColumns
      refine bind_np (mapP_np fun cid _ => map_np (relColumn_np h.rel cid).1) fun nums _ => ?_
      split
      · simp
      · split <;> simp
    · unfold conflictIndex
      split
      · simp
      · split <;> simp
    · unfold conflictConstraint
      split
      · simp
      · split <;> simp
    · cases oc.update with
      | none => simp [conflictUpdate]
      | some l =>
        rw [conflictUpdate]
        exact ite_np (fun _ => ok_np _) fun _ => mapP_np fun cid _ => (relColumn_np h.rel cid).1

/-! ### Queries and filters -/

theorem checkReturn_np {c : Checker} (h : CkOk c) {fs : List FieldInfo} {l : Option ColIdentList}
    (hr : ∀ l', l = some l' → ∀ cid ∈ l'.items, ∃ f ∈ fs, f.colIdent.name = cid.name) :
    checkReturn c fs l ≠ .panic := by
  cases l with
  | none => simp [checkReturn]
  | some l =>
    rw [checkReturn]
    refine ite_np (fun _ => map_np (mapP_np fun f _ => checkRead_np h f _)) fun _ =>
      bind_np (mapP_np fun cid hc => ?_) fun _ _ => map_np (mapP_np fun f _ => checkRead_np h f _)
    obtain ⟨f, hf, hn⟩ := hr l rfl cid hc
    unfold findQueryField
    cases hx : fs.find? fun f => f.colIdent.name = cid.name with
    | none =>
      have := List.find?_eq_none.1 hx f hf
      simp [hn] at this
    | some g => exact map_np (findColumn_np h cid).1

theorem checkRel_np {c : Checker} (h : CkOk c) (q : Query) : checkRel c q ≠ .panic := by
  unfold checkRel
  refine ite_np (fun _ => ok_np _) fun _ => ite_np (fun _ => map_np ?_) fun _ => ite_np (fun _ => map_np ?_)
    fun _ => ok_np _
  · unfold checkRelReads
    exact map_np (mapP_np fun f _ => checkRead_np h f _)
  · unfold checkRelWrites
    refine map_np (mapP_np fun x _ => ?_)
    unfold checkRelWrite
    refine bind_np (checkWrite_np h _ _) fun w _ => ?_
    cases w with
    | none => simp only; split <;> simp
    | some w => simp

/-- **C99** The type checker ends without a crash on what the analysis accepted, for a catalog of a database. -/
theorem C99_check {cat : Catalog} (h : CatOk cat) {env : Env} {cache : Cache} {n : Bytes} {fs : List (FieldHdr × Ty)}
    {s : St} (e : analyzeQuery env cache n fs = .ok s) : checkQuery cat s.q ≠ .panic := by
  have f := analyzeQuery_fits e
  obtain ⟨h1, h2⟩ := loadTarget_np h s.q.rel.id
  unfold checkQuery
  refine bind_np h1 fun c hc => ?_
  obtain ⟨h3, h4⟩ := checkJoin_np (h2 c hc) (j := s.q.join) fun j hj d hd cc hcc => ((f.join j hj).2 d hd cc hcc).1
  refine bind_np h3 fun cj hcj => ?_
  have hk := (h4 cj hcj).force s.q.force
  unfold checkRest
  refine bind_np (map_np (mapP_np fun cid _ => (findColumn_np hk cid).1)) fun _ _ =>
    bind_np (map_np (mapP_np fun cid _ => bind_np (relColumn_np hk.rel cid).1 fun _ _ => refuseIf_np _ _)) fun _ _ =>
    bind_np (map_np (mapP_np fun cid _ => (findColumn_np hk cid).1)) fun _ _ =>
    bind_np (checkReturn_np hk ?_) fun _ _ => bind_np ?_ fun _ _ => bind_np (checkRel_np hk _) fun rw _ =>
    bind_np ?_ fun _ _ => map_np (checkConflict_np hk _ _)
  · intro l hl
    exact C57_columns env cache n fs s e l (.inl hl)
  · cases s.q.result with
    | none => simp [checkResult]
    | some r => exact map_np (mapP_np fun f _ => checkRead_np hk f _)
  · cases hw : s.q.wher with
    | none => simp [checkWhereItems]
    | some w =>
      exact checkWhereItems_np hk s.rs _ (fun i hi => (f.wher w hw i hi).1) fun i hi => (f.wher w hw i hi).2

/-- **C99** So it does on every filter struct. -/
theorem C99_check_filter {cat : Catalog} (h : CatOk cat) (f : FilterStruct) : checkFilter cat f ≠ .panic := by
  obtain ⟨h1, h2⟩ := loadTarget_np h f.rel.id
  unfold checkFilter
  refine bind_np h1 fun c hc => bind_np (mapP_np fun g _ => checkFieldFilter_np (h2 c hc) g) fun _ _ => map_np ?_
  cases f.textSearch with
  | none => simp [checkTextSearch]
  | some cid => exact bind_np (relColumn_np (h2 c hc).rel cid).1 fun _ _ => refuseIf_np _ _

end Verif.Postgres
