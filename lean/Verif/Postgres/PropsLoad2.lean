import Verif.Postgres.PropsLoad
import Verif.Postgres.PropsCrash

/-
C104: the relations that the checker knows are those of the database.
-/
namespace Verif.Postgres
open Verif.Analysis

/-! ### What is read for a name -/

theorem selectIndexes_some (s : SysTables) (w : Consistent s) (o : Nat) : ∃ l, selectIndexes s o = some l := by
  rw [selectIndexes]
  refine allOf_some _ _ fun i hi => ?_
  rw [mem_orderBy, List.mem_filter] at hi
  obtain ⟨h1, h2⟩ := w.keys i hi.1
  exact ⟨_, by rw [readIndex, C104_key _ h1 h2]; rfl⟩

theorem askRelation_eq (s : SysTables) (w : Consistent s) (o : Nat) (k : Char)
    (hk : List.lookup o s.kinds = some k) : ∃ is, selectIndexes s o = some is ∧
      askRelation s o = some { relKind := k, columns := selectColumns s o
                               constraints := selectConstraints s o, indexes := is } := by
  obtain ⟨is, h⟩ := selectIndexes_some s w o
  exact ⟨is, h, by simp [askRelation, hk, h]⟩

theorem lookup_askNames (s : SysTables) (w : Consistent s) (n : Bytes) (l : List (Bytes × Nat))
    (hl : ∀ x ∈ l, x ∈ s.names) :
    List.lookup n (askNames s l) = (List.lookup n l).bind (askRelation s) := by
  induction l with
  | nil => rfl
  | cons x r ih =>
    obtain ⟨m, o⟩ := x
    have hk := w.names (m, o) (hl _ (by simp))
    obtain ⟨k, hk⟩ := Option.isSome_iff_exists.mp hk
    obtain ⟨is, _, ha⟩ := askRelation_eq s w o k hk
    have ih := ih fun x hx => hl x (by simp [hx])
    rw [askNames, ha, List.lookup_cons, List.lookup_cons]
    cases n == m with
    | true => simp [ha]
    | false => exact ih

theorem lookup_isSome (s : SysTables) (w : Consistent s) (n : Bytes) (o : Nat)
    (h : List.lookup n s.names = some o) : ∃ k, List.lookup o s.kinds = some k := by
  have hm : ∀ l : List (Bytes × Nat), List.lookup n l = some o → ∃ m, (m, o) ∈ l := by
    intro l
    induction l with
    | nil => intro h; cases h
    | cons x r ih =>
      intro h
      rw [List.lookup_cons] at h
      split at h
      · cases h; exact ⟨x.1, by simp⟩
      · obtain ⟨m, hm⟩ := ih h; exact ⟨m, by simp [hm]⟩
  obtain ⟨m, hm⟩ := hm _ h
  exact Option.isSome_iff_exists.mp (w.names _ hm)

/-- How a relation is loaded from what the database has. -/
theorem load_eq (s : SysTables) (w : Consistent s) (rid : RelIdent) :
    (List.lookup (qualifiedName rid) s.names = none ∧ loadRelation (catalogOf s) rid = .err .relationUnknown) ∨
    ∃ o k is, List.lookup (qualifiedName rid) s.names = some o ∧ List.lookup o s.kinds = some k ∧
      selectIndexes s o = some is ∧
      loadRelation (catalogOf s) rid =
        (mapP (loadColumn (catalogOf s) rid k) (selectColumns s o)).bind fun cols =>
        (mapP loadIndex is).map fun inds =>
          { id := rid, relKind := k, columns := cols, constraints := selectConstraints s o, indexes := inds } := by
  have h := lookup_askNames s w (qualifiedName rid) s.names fun _ h => h
  cases ho : List.lookup (qualifiedName rid) s.names with
  | none =>
    rw [ho] at h
    refine .inl ⟨rfl, ?_⟩
    rw [loadRelation, show (catalogOf s).rels = askNames s s.names from rfl, h]
    rfl
  | some o =>
    obtain ⟨k, hk⟩ := lookup_isSome s w _ o ho
    obtain ⟨is, hi, ha⟩ := askRelation_eq s w o k hk
    rw [ho, Option.bind_some, ha] at h
    refine .inr ⟨o, k, is, rfl, hk, hi, ?_⟩
    rw [loadRelation, show (catalogOf s).rels = askNames s s.names from rfl, h]

/-! ### Failures -/

/-- A column that the database has: not dropped, and not one of the system columns. -/
def Live (s : SysTables) (relid : Nat) (a : SysAttr) : Prop :=
  a ∈ s.attrs ∧ a.relid = relid ∧ 0 < a.num ∧ a.dropped = false

/-- The type is one that can be written without a schema, and not a pseudo type. -/
def Usable (s : SysTables) (typid : Nat) : Prop :=
  ∃ t ∈ s.types, t.oid = typid ∧ t.visible = true ∧ t.category ≠ 'P'

theorem mem_live (s : SysTables) (relid : Nat) (a : SysAttr) : a ∈ liveAttrs s relid ↔ Live s relid a := by
  rw [liveAttrs, List.mem_filter, Live]
  simp [and_assoc]

theorem joinRows_eq (s : SysTables) (w : Consistent s) (a : SysAttr) :
    joinRows s a = [colRow a ((primaryOf s a).length > 0)] := by
  have h1 := w.primary a.relid
  have h2 : (primaryOf s a).length ≤ 1 := by
    refine Nat.le_trans ?_ h1
    have e : primaryOf s a = (s.indexes.filter fun i => i.primary && i.relid = a.relid).filter
        fun i => i.key.contains a.num := by
      rw [List.filter_filter, primaryOf]
      congr 1
      funext i
      rw [Bool.and_comm (i.key.contains a.num)]
    rw [e]
    exact List.length_filter_le _ _
  unfold joinRows
  split
  · rename_i h; rw [h]; rfl
  · rename_i is hne
    match hi : primaryOf s a with
    | [] => exact absurd hi hne
    | [i] =>
      have hm : i ∈ primaryOf s a := by rw [hi]; simp
      rw [primaryOf, List.mem_filter] at hm
      simp only [Bool.and_eq_true] at hm
      simp [hm.2.1.1]
    | i :: j :: r => rw [hi] at h2; simp at h2

theorem flatMap_rows {α β : Type} (f : α → List β) (g : α → β) (h : ∀ a, f a = [g a]) (l : List α) :
    l.flatMap f = l.map g := by
  induction l with
  | nil => rfl
  | cons x xs ih => simp [List.flatMap_cons, h, ih]

theorem selectColumns_eq (s : SysTables) (w : Consistent s) (o : Nat) : selectColumns s o =
    orderBy (·.num) ((liveAttrs s o).map fun a => colRow a ((primaryOf s a).length > 0)) := by
  rw [selectColumns, flatMap_rows _ _ (joinRows_eq s w)]

theorem mem_selectColumns (s : SysTables) (w : Consistent s) (o : Nat) (r : RawCol) : r ∈ selectColumns s o ↔
    ∃ a, Live s o a ∧ r = colRow a ((primaryOf s a).length > 0) := by
  rw [selectColumns_eq s w, mem_orderBy, List.mem_map]
  constructor
  · rintro ⟨a, ha, e⟩; exact ⟨a, (mem_live s o a).mp ha, e.symm⟩
  · rintro ⟨a, ha, e⟩; exact ⟨a, (mem_live s o a).mpr ha, e.symm⟩

theorem columns_sorted (s : SysTables) (w : Consistent s) (o : Nat) :
    (selectColumns s o).Pairwise fun a b => a.num < b.num := by
  rw [selectColumns_eq s w]
  refine orderBy_sorted _ _ ?_
  rw [List.pairwise_map]
  have h := w.attrs.filter fun a => a.relid = o && decide (0 < a.num) && !a.dropped
  refine List.Pairwise.imp_of_mem ?_ h
  intro a b ha hb hab e
  have ha := (mem_live s o a).mp ha
  have hb := (mem_live s o b).mp hb
  exact hab ⟨by rw [ha.2.1, hb.2.1], e⟩

theorem type_isNone (s : SysTables) (w : Consistent s) (id : Nat) :
    (catalogOf s).type id = none ↔ ¬ Usable s id := by
  constructor
  · rintro h ⟨r, hr, h1, h2, h3⟩
    rw [(C104_types s w id _).mpr ⟨r, hr, h1, h2, h3, rfl⟩] at h
    cases h
  · intro h
    cases ht : (catalogOf s).type id with
    | none => rfl
    | some t =>
      obtain ⟨r, hr, h1, h2, h3, _⟩ := (C104_types s w id t).mp ht
      exact absurd ⟨r, hr, h1, h2, h3⟩ h

theorem loadColumn_err (cat : Catalog) (rid : RelIdent) (k : Char) (r : RawCol) (e : DbErr)
    (h : loadColumn cat rid k r = .err e) : e = .relationColumnUnknownType ∧ cat.type r.typeOid = none := by
  unfold loadColumn at h
  split at h
  · rename_i hn; cases h; exact ⟨rfl, hn⟩
  · cases h

theorem mapCols_err (cat : Catalog) (rid : RelIdent) (k : Char) (l : List RawCol) (e : DbErr)
    (h : mapP (loadColumn cat rid k) l = .err e) :
    e = .relationColumnUnknownType ∧ ∃ r ∈ l, cat.type r.typeOid = none := by
  induction l with
  | nil => cases h
  | cons r rs ih =>
    rw [mapP] at h
    cases hr : loadColumn cat rid k r with
    | ok c =>
      rw [hr] at h
      cases hs : mapP (loadColumn cat rid k) rs with
      | ok cs => simp [hs, Res.bind, Res.map] at h
      | err e' =>
        simp only [hs, Res.bind, Res.map, Res.err.injEq] at h
        subst h
        obtain ⟨h1, x, hx, h2⟩ := ih hs
        exact ⟨h1, x, by simp [hx], h2⟩
      | panic => simp [hs, Res.bind, Res.map] at h
    | err e' =>
      simp only [hr, Res.bind, Res.err.injEq] at h
      subst h
      obtain ⟨h1, h2⟩ := loadColumn_err cat rid k r _ hr
      exact ⟨h1, r, by simp, h2⟩
    | panic => simp [hr, Res.bind] at h

theorem mapCols_refused (cat : Catalog) (rid : RelIdent) (k : Char) (l : List RawCol)
    (h : ∃ r ∈ l, cat.type r.typeOid = none) :
    mapP (loadColumn cat rid k) l = .err .relationColumnUnknownType := by
  induction l with
  | nil => obtain ⟨r, hr, _⟩ := h; cases hr
  | cons r rs ih =>
    rw [mapP]
    cases ht : cat.type r.typeOid with
    | none => simp [loadColumn, ht, Res.bind]
    | some t =>
      have h' : ∃ r ∈ rs, cat.type r.typeOid = none := by
        obtain ⟨x, hx, hn⟩ := h
        rcases List.mem_cons.mp hx with e | hx
        · rw [e, ht] at hn; cases hn
        · exact ⟨x, hx, hn⟩
      simp [loadColumn, ht, Res.bind, ih h', Res.map]

theorem mapIdx_ne_err (l : List RawIndex) (e : DbErr) : mapP loadIndex l ≠ .err e := by
  have hl : ∀ s (st : IxSt) (e : DbErr), ixLoop st s ≠ .err e := by
    intro s
    induction s with
    | nil => intro st e h; cases h
    | cons c cs ih =>
      intro st e h
      rw [ixLoop] at h
      split at h
      · cases h
      · cases h
      · rename_i st' _
        split at h
        · cases h
        · cases hx : ixLoop st' cs with
          | ok b => simp [hx, Res.map] at h
          | err e' => exact ih st' e' hx
          | panic => simp [hx, Res.map] at h
  have hi : ∀ r e, loadIndex r ≠ .err e := by
    intro r e h
    rw [loadIndex] at h
    cases hp : parseIndexExpr r.definition with
    | ok b => simp [hp, Res.map] at h
    | panic => simp [hp, Res.map] at h
    | err e' =>
      unfold parseIndexExpr at hp
      split at hp
      · cases hp
      · exact hl _ _ _ hp
  induction l generalizing e with
  | nil => intro h; cases h
  | cons r rs ih =>
    intro h
    rw [mapP] at h
    cases hr : loadIndex r with
    | ok c =>
      rw [hr] at h
      cases hs : mapP loadIndex rs with
      | ok cs => simp [hs, Res.bind, Res.map] at h
      | err e' => exact ih e' hs
      | panic => simp [hs, Res.bind, Res.map] at h
    | err e' => exact hi r e' hr
    | panic => simp [hr, Res.bind] at h

/-- How loading fails. -/
theorem load_err (s : SysTables) (w : Consistent s) (rid : RelIdent) (e : DbErr)
    (h : loadRelation (catalogOf s) rid = .err e) :
    (e = .relationUnknown ∧ List.lookup (qualifiedName rid) s.names = none) ∨
    (e = .relationColumnUnknownType ∧ ∃ o, List.lookup (qualifiedName rid) s.names = some o ∧
      ∃ a, Live s o a ∧ ¬ Usable s a.typid) := by
  rcases load_eq s w rid with ⟨hn, he⟩ | ⟨o, k, is, ho, _, _, he⟩
  · rw [he] at h; cases h; exact .inl ⟨rfl, hn⟩
  · rw [he] at h
    cases hc : mapP (loadColumn (catalogOf s) rid k) (selectColumns s o) with
    | ok cols =>
      rw [hc] at h
      cases hi : mapP loadIndex is with
      | ok l => simp [hi, Res.bind, Res.map] at h
      | err e' => exact absurd hi (mapIdx_ne_err is e')
      | panic => simp [hi, Res.bind, Res.map] at h
    | err e' =>
      simp only [hc, Res.bind, Res.err.injEq] at h
      subst h
      obtain ⟨h1, r, hr, hn⟩ := mapCols_err _ _ _ _ _ hc
      obtain ⟨a, ha, e⟩ := (mem_selectColumns s w o r).mp hr
      refine .inr ⟨h1, o, ho, a, ha, ?_⟩
      rw [e] at hn
      exact (type_isNone s w _).mp hn
    | panic => simp [hc, Res.bind] at h

/-- C104: a relation is unknown exactly if the database does not know the name. -/
theorem C104_unknown (s : SysTables) (w : Consistent s) (rid : RelIdent) :
    loadRelation (catalogOf s) rid = .err .relationUnknown ↔
      List.lookup (qualifiedName rid) s.names = none := by
  constructor
  · intro h
    rcases load_err s w rid _ h with ⟨_, h⟩ | ⟨h, _⟩
    · exact h
    · cases h
  · intro h
    rcases load_eq s w rid with ⟨_, he⟩ | ⟨o, k, is, ho, _⟩
    · exact he
    · rw [h] at ho; cases ho

/-- C104: a relation is refused for the type of a column exactly if the database has a column in it whose type
is not visible, or a pseudo type. -/
theorem C104_refused (s : SysTables) (w : Consistent s) (rid : RelIdent) :
    loadRelation (catalogOf s) rid = .err .relationColumnUnknownType ↔
      ∃ o, List.lookup (qualifiedName rid) s.names = some o ∧ ∃ a, Live s o a ∧ ¬ Usable s a.typid := by
  constructor
  · intro h
    rcases load_err s w rid _ h with ⟨h, _⟩ | ⟨_, h⟩
    · cases h
    · exact h
  · rintro ⟨o, ho, a, ha, hn⟩
    rcases load_eq s w rid with ⟨h, _⟩ | ⟨o', k, is, ho', _, _, he⟩
    · rw [h] at ho; cases ho
    · rw [ho] at ho'
      cases ho'
      rw [he, mapCols_refused _ _ _ _
        ⟨_, (mem_selectColumns s w o _).mpr ⟨a, ha, rfl⟩, (type_isNone s w _).mpr hn⟩]
      rfl

/-- C104: there are no other errors. -/
theorem C104_errors (s : SysTables) (w : Consistent s) (rid : RelIdent) (e : DbErr)
    (h : loadRelation (catalogOf s) rid = .err e) : e = .relationUnknown ∨ e = .relationColumnUnknownType := by
  rcases load_err s w rid e h with ⟨h, _⟩ | ⟨h, _⟩
  · exact .inl h
  · exact .inr h

/-! ### What is loaded -/

/-- The column of the checker is this column of the database. -/
structure Shows (s : SysTables) (rid : RelIdent) (k : Char) (a : SysAttr) (c : Column) : Prop where
  num : c.num = a.num
  name : c.name = a.name
  typeMod : c.typeMod = a.typeMod
  notNull : c.hasNotNull = a.notNull
  hasDefault : c.hasDefault = a.hasDef
  primary : c.isPrimary = true ↔ ∃ i ∈ s.indexes, i.primary = true ∧ i.relid = a.relid ∧ a.num ∈ i.key
  type : (catalogOf s).type a.typid = some c.type
  rel : c.rel = rid
  kind : c.relKind = k

theorem primary_iff (s : SysTables) (a : SysAttr) : decide ((primaryOf s a).length > 0) = true ↔
    ∃ i ∈ s.indexes, i.primary = true ∧ i.relid = a.relid ∧ a.num ∈ i.key := by
  rw [decide_eq_true_eq, gt_iff_lt, List.length_pos_iff_exists_mem]
  constructor
  · rintro ⟨i, hi⟩
    rw [primaryOf, List.mem_filter] at hi
    simp only [Bool.and_eq_true, decide_eq_true_eq, List.contains_iff_mem] at hi
    exact ⟨i, hi.1, hi.2.1.1, hi.2.1.2, hi.2.2⟩
  · rintro ⟨i, h1, h2, h3, h4⟩
    refine ⟨i, ?_⟩
    rw [primaryOf, List.mem_filter]
    simp only [Bool.and_eq_true, decide_eq_true_eq, List.contains_iff_mem]
    exact ⟨h1, ⟨h2, h3⟩, h4⟩

theorem shows_of (s : SysTables) (rid : RelIdent) (k : Char) (a : SysAttr) (c : Column)
    (h : loadColumn (catalogOf s) rid k (colRow a ((primaryOf s a).length > 0)) = .ok c) :
    Shows s rid k a c := by
  unfold loadColumn at h
  split at h
  · cases h
  · rename_i t ht
    cases h
    exact ⟨rfl, rfl, rfl, rfl, rfl, primary_iff s a, ht, rfl, rfl⟩

theorem pairwise2_left {α β : Type} {r : α → β → Prop} : ∀ {xs : List α} {ys : List β}, Pairwise2 r xs ys →
    ∀ x ∈ xs, ∃ y ∈ ys, r x y
  | _, _, .nil, _, h => by cases h
  | _, _, .cons a b, x, h => by
    cases h with
    | head => exact ⟨_, .head _, a⟩
    | tail _ h =>
      obtain ⟨y, hy, hr⟩ := pairwise2_left b x h
      exact ⟨y, .tail _ hy, hr⟩

theorem pairwise2_sorted {xs : List RawCol} {ys : List Column} {r : RawCol → Column → Prop}
    (hr : ∀ x y, r x y → y.num = x.num) (h : Pairwise2 r xs ys)
    (hs : xs.Pairwise fun a b => a.num < b.num) : ys.Pairwise fun a b => a.num < b.num := by
  induction h with
  | nil => exact .nil
  | cons a b ih =>
    rw [List.pairwise_cons] at hs
    refine List.pairwise_cons.mpr ⟨?_, ih hs.2⟩
    intro y hy
    obtain ⟨x, hx, hxy⟩ := pairwise2_right b y hy
    rw [hr _ _ a, hr _ _ hxy]
    exact hs.1 x hx

theorem loadColumn_num (cat : Catalog) (rid : RelIdent) (k : Char) (x : RawCol) (y : Column)
    (h : loadColumn cat rid k x = .ok y) : y.num = x.num := by
  unfold loadColumn at h
  split at h
  · cases h
  · cases h; rfl

/-- C104: the relation that is loaded is that of the database: its kind, its columns in their order with what
the database says of them, its constraints, and its indexes. -/
theorem C104_relation (s : SysTables) (w : Consistent s) (rid : RelIdent) (rel : Relation)
    (h : loadRelation (catalogOf s) rid = .ok rel) :
    rel.id = rid ∧ ∃ o, List.lookup (qualifiedName rid) s.names = some o ∧
      List.lookup o s.kinds = some rel.relKind ∧
      (∀ c ∈ rel.columns, ∃ a, Live s o a ∧ Shows s rid rel.relKind a c) ∧
      (∀ a, Live s o a → ∃ c ∈ rel.columns, Shows s rid rel.relKind a c) ∧
      (rel.columns.Pairwise fun a b => a.num < b.num) ∧
      (∀ n t, ({ name := n, typ := t } : Constraint) ∈ rel.constraints ↔
        ∃ c ∈ s.cons, c.relid = o ∧ c.name = n ∧ c.typ = t) ∧
      (∀ i, i ∈ rel.indexes ↔ ∃ x ∈ s.indexes, x.relid = o ∧ i.name = x.name ∧ i.isUnique = x.unique ∧
        i.isPrimary = x.primary ∧ i.key = x.key ∧ parseIndexExpr x.definition = .ok i.expression ∧
        i.predicate = x.predicate) := by
  rcases load_eq s w rid with ⟨_, he⟩ | ⟨o, k, is, ho, hk, hi, he⟩
  · rw [he] at h; cases h
  · rw [he] at h
    simp only [Res.bind_eq_ok, Res.map_eq_ok] at h
    obtain ⟨cols, hc, inds, hx, rfl⟩ := h
    have hc := mapP_ok.mp hc
    have hx := mapP_ok.mp hx
    refine ⟨rfl, o, ho, hk, ?_, ?_, ?_, ?_, ?_⟩
    · intro c hcm
      obtain ⟨r, hr, e⟩ := pairwise2_right hc c hcm
      obtain ⟨a, ha, er⟩ := (mem_selectColumns s w o r).mp hr
      rw [er] at e
      exact ⟨a, ha, shows_of s rid k a c e⟩
    · intro a ha
      obtain ⟨c, hcm, e⟩ := pairwise2_left hc _ ((mem_selectColumns s w o _).mpr ⟨a, ha, rfl⟩)
      exact ⟨c, hcm, shows_of s rid k a c e⟩
    · exact pairwise2_sorted (loadColumn_num _ _ _) hc (columns_sorted s w o)
    · intro n t
      show _ ∈ selectConstraints s o ↔ _
      rw [selectConstraints, List.mem_map]
      constructor
      · rintro ⟨c, hm, e⟩
        rw [mem_orderBy, List.mem_filter, decide_eq_true_eq] at hm
        cases e
        exact ⟨c, hm.1, hm.2, rfl, rfl⟩
      · rintro ⟨c, hm, h1, h2, h3⟩
        refine ⟨c, ?_, by rw [h2, h3]⟩
        rw [mem_orderBy, List.mem_filter, decide_eq_true_eq]
        exact ⟨hm, h1⟩
    · intro i
      have hm := mem_allOf _ _ _ hi
      have hread : ∀ x ∈ s.indexes, readIndex x =
          some { name := x.name, isUnique := x.unique, isPrimary := x.primary, key := x.key
                 definition := x.definition, predicate := x.predicate } := by
        intro x hxm
        rw [readIndex, C104_key _ (w.keys x hxm).1 (w.keys x hxm).2]
        rfl
      constructor
      · intro hin
        obtain ⟨r, hr, e⟩ := pairwise2_right hx i hin
        obtain ⟨x, hxm, er⟩ := (hm r).mp hr
        rw [mem_orderBy, List.mem_filter, decide_eq_true_eq] at hxm
        rw [hread x hxm.1] at er
        cases er
        rw [loadIndex, Res.map_eq_ok] at e
        obtain ⟨b, hb, rfl⟩ := e
        exact ⟨x, hxm.1, hxm.2, rfl, rfl, rfl, rfl, hb, rfl⟩
      · rintro ⟨x, hxm, h1, h2, h3, h4, h5, h6, h7⟩
        have hxo : x ∈ orderBy (fun i => (i.oid : Int)) (s.indexes.filter fun i => i.relid = o) := by
          rw [mem_orderBy, List.mem_filter, decide_eq_true_eq]
          exact ⟨hxm, h1⟩
        obtain ⟨y, hy, e⟩ := pairwise2_left hx _ ((hm _).mpr ⟨x, hxo, hread x hxm⟩)
        rw [loadIndex, h6] at e
        have : i = y := by
          cases i
          simp only [Res.map, Res.ok.injEq] at e
          subst e
          simp only at h2 h3 h4 h5 h7
          subst h2 h3 h4 h5 h7
          rfl
        rw [this]; exact hy

/-! ### The cache -/

/-- C104: relations that are kept for the next query struct do not change an answer. -/
theorem C104_cache (cat : Catalog) (rids : List RelIdent) :
    loadMany cat [] rids = rids.map (loadRelation cat) := by
  have key : ∀ (l : List RelIdent) (cache : List (RelIdent × Relation)),
      (∀ r rel, List.lookup r cache = some rel → loadRelation cat r = .ok rel) →
      loadMany cat cache l = l.map (loadRelation cat) := by
    intro l
    induction l with
    | nil => intro _ _; rfl
    | cons x xs ih =>
      intro cache hc
      rw [loadMany, List.map_cons]
      cases hl : List.lookup x cache with
      | some rel =>
        have e : loadCached cat cache x = (.ok rel, cache) := by simp [loadCached, hl]
        rw [e, hc x rel hl]
        exact congrArg _ (ih cache hc)
      | none =>
        cases hr : loadRelation cat x with
        | ok rel =>
          have e : loadCached cat cache x = (.ok rel, (x, rel) :: cache) := by simp [loadCached, hl, hr]
          rw [e]
          refine congrArg _ (ih _ ?_)
          intro r rel' h
          rw [List.lookup_cons] at h
          split at h
          · rename_i hxr
            cases h
            rw [eq_of_beq hxr]; exact hr
          · exact hc r rel' h
        | err e' =>
          have e : loadCached cat cache x = (.err e', cache) := by simp [loadCached, hl, hr]
          rw [e]; exact congrArg _ (ih cache hc)
        | panic =>
          have e : loadCached cat cache x = (.panic, cache) := by simp [loadCached, hl, hr]
          rw [e]; exact congrArg _ (ih cache hc)
  exact key rids [] fun r rel h => by cases h

/-! ### Crashes -/

/-- C104: when what the other theorems take for granted of the catalog holds for a database. -/
theorem C104_no_crash (s : SysTables) (w : Consistent s)
    (ha : ∀ t ∈ s.types, t.visible = true → t.category = 'A' → Usable s t.elem)
    (hl : ∀ l o, s.literals l = some o → Usable s o)
    (hd : ∀ i ∈ s.indexes, i.definition.getLast? ≠ some '\'') : CatOk (catalogOf s) where
  arrays := by
    intro t ht harr
    have ht : t ∈ (selectTypes s).reverse := ht
    rw [List.mem_reverse, selectTypes, List.mem_map] at ht
    obtain ⟨r, hr, e⟩ := ht
    rw [List.mem_filter, Bool.and_eq_true] at hr
    have hcat : r.category = 'A' := by
      rw [PgType.isArray, decide_eq_true_eq, ← e] at harr
      exact harr
    rw [Option.isSome_iff_ne_none, Ne, type_isNone s w, Classical.not_not, ← e]
    exact ha r hr.1 hr.2.1 hcat
  literals := by
    intro l o h
    rw [Option.isSome_iff_ne_none, Ne, type_isNone s w, Classical.not_not]
    exact hl l o h
  indexes := by
    intro r hr i hi
    have hr : r ∈ askNames s s.names := hr
    have key : ∀ l : List (Bytes × Nat), r ∈ askNames s l → ∃ o, askRelation s o = some r.2 := by
      intro l
      induction l with
      | nil => intro h; cases h
      | cons x xs ih =>
        obtain ⟨n, o⟩ := x
        intro h
        rw [askNames] at h
        split at h
        · exact ih h
        · rename_i y hy
          rcases List.mem_cons.mp h with e | h
          · exact ⟨o, by rw [e]; exact hy⟩
          · exact ih h
    obtain ⟨o, ho⟩ := key _ hr
    unfold askRelation at ho
    split at ho
    · cases ho
    · split at ho
      · cases ho
      · rename_i is his
        cases ho' : r.2
        rw [ho', Option.some.injEq] at ho
        cases ho
        rw [ho'] at hi
        obtain ⟨x, hx, e⟩ := (mem_allOf _ _ _ his i).mp hi
        rw [mem_orderBy, List.mem_filter] at hx
        rw [readIndex, Option.map_eq_some_iff] at e
        obtain ⟨_, _, e⟩ := e
        rw [← e]
        exact hd x hx.1

end Verif.Postgres
