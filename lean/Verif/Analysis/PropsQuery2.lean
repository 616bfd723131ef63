import Verif.Analysis.PropsQuery

/-
Properties C56 to C58: the clauses of an accepted query fit its kind and its records, and their
columns are qualified by declared relations.
-/
namespace Verif.Analysis

/-! ### Declared qualifiers -/

/-- The names are identifiers. -/
def ColNamed (c : ColIdent) : Prop := OptIdent c.qualifier ∧ Ident c.name

/-- The names are identifiers, and the column is unqualified or its qualifier is a declared relation. -/
def Declared (rs : RelSpace) (c : ColIdent) : Prop :=
  ColNamed c ∧ (c.qualifier = [] ∨ (rs.get c.qualifier).isSome = true)

theorem parseColIdent_declared {rs : RelSpace} {v : Bytes} {c : ColIdent}
    (h : parseColIdent rs v = .ok c) : Declared rs c := by
  have hn := (C29_col_ident rs v c).1 h
  refine ⟨⟨hn.2.1, hn.1⟩, ?_⟩
  unfold parseColIdent at h
  split at h
  · split at h
    · split at h
      · simp at h
      · next r hr => simp only [Res.ok.injEq] at h; right; rw [← h]; simp [hr]
    · simp only [Res.ok.injEq] at h; left; rw [← h]
  · simp at h

/-- Everything declared in `rs` is declared in `rs'`. -/
def Grows (rs rs' : RelSpace) : Prop := ∀ k, (rs.get k).isSome = true → (rs'.get k).isSome = true

theorem Grows.rfl {rs : RelSpace} : Grows rs rs := fun _ h => h
theorem Grows.trans {a b c : RelSpace} (h : Grows a b) (h' : Grows b c) : Grows a c :=
  fun k hk => h' k (h k hk)
theorem Declared.grows {rs rs' : RelSpace} {c : ColIdent} (h : Declared rs c) (g : Grows rs rs') :
    Declared rs' c := ⟨h.1, h.2.imp id (g _)⟩

theorem addToRelSpace_grows {rs rs' : RelSpace} {id : RelIdent} (h : addToRelSpace rs id = .ok rs') :
    Grows rs rs' := by
  have key : ∀ (k : Bytes), Grows rs ((k, id) :: rs) := by
    intro k j hj
    unfold RelSpace.get at hj ⊢
    rw [List.lookup_cons]
    split
    · rfl
    · exact hj
  unfold addToRelSpace at h
  split at h
  · split at h
    · simp at h
    · simp only [Res.ok.injEq] at h; rw [← h]; exact key _
  · split at h
    · simp at h
    · simp only [Res.ok.injEq] at h; rw [← h]; exact key _

theorem parseColIdentsLoop_declared {rs : RelSpace} {vs : List Bytes} {l : List ColIdent}
    (h : parseColIdentsLoop rs vs = .ok l) : ∀ c ∈ l, Declared rs c := by
  induction vs generalizing l with
  | nil => simp [parseColIdentsLoop] at h; subst h; simp
  | cons v vs ih =>
    rw [parseColIdentsLoop] at h
    simp only [Res.bind_eq_ok, Res.map_eq_ok] at h
    obtain ⟨c, hc, cs, hcs, rfl⟩ := h
    intro d hd
    rcases List.mem_cons.1 hd with rfl | hd
    · exact parseColIdent_declared hc
    · exact ih hcs d hd

theorem parseColIdents_declared {rs : RelSpace} {vs : List Bytes} {l : List ColIdent}
    (h : parseColIdents rs vs = .ok l) : ∀ c ∈ l, Declared rs c := by
  unfold parseColIdents at h
  split at h
  · simp at h
  · exact parseColIdentsLoop_declared h

theorem parseColIdentList_declared {rs : RelSpace} {vs : List Bytes} {l : ColIdentList}
    (h : parseColIdentList rs vs = .ok l) : ∀ c ∈ l.items, Declared rs c := by
  unfold parseColIdentList at h
  split at h
  · simp at h; simp [← h]
  · rw [Res.map_eq_ok] at h
    obtain ⟨cs, hcs, rfl⟩ := h
    exact parseColIdents_declared hcs

def Rhs.Declared (rs : RelSpace) : Rhs → Prop
  | .column c => Analysis.Declared rs c
  | _ => True

def ColCond.Declared (rs : RelSpace) (c : ColCond) : Prop :=
  Analysis.Declared rs c.lhs ∧ c.rhs.Declared rs

def Bound.Declared (rs : RelSpace) : Bound → Prop
  | .column c => Analysis.Declared rs c
  | .field _ _ => True

inductive DeclItem (rs : RelSpace) : WItem → Prop
  | bool (b : Bool) : DeclItem rs (.bool b)
  | nested (n : Bytes) (l : List WItem) : (∀ i ∈ l, DeclItem rs i) → DeclItem rs (.nested n l)
  | field (f : FieldCond) : Declared rs f.colIdent → DeclItem rs (.field f)
  | column (c : ColCond) : c.Declared rs → DeclItem rs (.column c)
  | between (b : BetweenCond) : Declared rs b.colIdent → b.lower.Declared rs → b.upper.Declared rs →
      DeclItem rs (.between b)

theorem Rhs.Declared.grows {rs rs' : RelSpace} (g : Grows rs rs') {r : Rhs} (h : r.Declared rs) :
    r.Declared rs' := by
  cases r with
  | column c => exact Analysis.Declared.grows h g
  | _ => trivial

theorem ColCond.Declared.grows {rs rs' : RelSpace} (g : Grows rs rs') {c : ColCond}
    (h : c.Declared rs) : c.Declared rs' := ⟨h.1.grows g, Rhs.Declared.grows g h.2⟩

theorem Bound.Declared.grows {rs rs' : RelSpace} (g : Grows rs rs') {b : Bound} (h : b.Declared rs) :
    b.Declared rs' := by
  cases b with
  | column c => exact Analysis.Declared.grows h g
  | _ => trivial

theorem DeclItem.grows {rs rs' : RelSpace} (g : Grows rs rs') {i : WItem} (h : DeclItem rs i) :
    DeclItem rs' i := by
  induction h with
  | bool b => exact .bool b
  | nested n l _ ih => exact .nested n l ih
  | field f h => exact .field f (h.grows g)
  | column c h => exact .column c (h.grows g)
  | between b h1 h2 h3 => exact .between b (h1.grows g) (h2.grows g) (h3.grows g)

/-! ### Where items -/

/-- What holds of connectives, of groups of such items and of every leaf, holds of all items. -/
def Closed (env : Env) (rs : RelSpace) (P : WItem → Prop) : Prop :=
  (∀ b, P (.bool b)) ∧ (∀ n l, (∀ i ∈ l, P i) → P (.nested n l)) ∧
    ∀ h t c, whereLeaf env rs h t = .ok (some c) → P c

mutual
theorem whereItems_all (env : Env) (rs : RelSpace) (P : WItem → Prop) (cl : Closed env rs P)
    (root : Option NamedInfo) (acc : List WItem) (fs : Fields) (out : List WItem)
    (ha : ∀ i ∈ acc, P i) (e : whereItems env rs root acc fs = .ok out) : ∀ i ∈ out, P i :=
  match fs with
  | .nil => by
    rw [whereItems] at e
    simp only [Res.ok.injEq] at e
    rw [← e]; exact ha
  | .cons h t rest => by
    rw [whereItems, Res.bind_eq_ok] at e
    obtain ⟨rel, -, e⟩ := e
    split at e
    · rw [Res.bind_eq_ok] at e
      obtain ⟨bs, hb, e⟩ := e
      have hbs : ∀ i ∈ bs, P i := by
        rw [whereBool_ok hb]
        intro i hi
        split at hi
        · simp at hi
        · simp at hi; rw [hi]; exact cl.1 _
      split at e
      · rw [Res.bind_eq_ok] at e
        obtain ⟨sub, hs, e⟩ := e
        refine whereItems_all env rs P cl root _ rest out ?_ e
        intro i hi
        simp only [List.append_assoc, List.mem_append, List.mem_singleton] at hi
        rcases hi with hi | hi | hi
        · exact ha i hi
        · exact hbs i hi
        · rw [hi]; exact cl.2.1 _ _ (whereNested_all env rs P cl root t sub hs)
      · rw [Res.bind_eq_ok] at e
        obtain ⟨o, ho, e⟩ := e
        refine whereItems_all env rs P cl root _ rest out ?_ e
        intro i hi
        simp only [List.append_assoc, List.mem_append, Option.mem_toList] at hi
        rcases hi with hi | hi | hi
        · exact ha i hi
        · exact hbs i hi
        · rw [hi] at ho; exact cl.2.2 _ _ _ ho
    · exact whereItems_all env rs P cl root _ rest out ha e
theorem whereNested_all (env : Env) (rs : RelSpace) (P : WItem → Prop) (cl : Closed env rs P)
    (root : Option NamedInfo) (t : Ty) (out : List WItem)
    (e : whereNested env rs root t = .ok out) : ∀ i ∈ out, P i :=
  match t with
  | .struct fs => by
    rw [whereNested] at e
    exact whereItems_all env rs P cl root [] fs out (by simp) e
  | .named _ (.struct fs) => by
    rw [whereNested] at e
    exact whereItems_all env rs P cl root [] fs out (by simp) e
  | .basic _ _ | .ptr _ | .slice _ | .array _ _ | .map _ _ | .chan | .func _ _ | .iface _ _
  | .named _ (.basic _ _) | .named _ (.ptr _) | .named _ (.slice _) | .named _ (.array _ _)
  | .named _ (.map _ _) | .named _ .chan | .named _ (.func _ _) | .named _ (.iface _ _)
  | .named _ (.named _ _) => by simp [whereNested] at e
end

theorem parseRhs_declared {rs : RelSpace} {s : Bytes} {r : Rhs} (h : parseRhs rs s = .ok r) :
    r.Declared rs := by
  unfold parseRhs at h
  split at h
  · next c hc => simp only [Res.ok.injEq] at h; rw [← h]; exact parseColIdent_declared hc
  · split at h
    · simp only [Res.ok.injEq] at h; rw [← h]; trivial
    · simp at h
  · simp at h

theorem colCond_declared {rs : RelSpace} {lhs : ColIdent} {e : PExpr} {c : ColCond}
    (hl : Declared rs lhs) (h : colCond rs lhs e = .ok c) : c.Declared rs := by
  unfold colCond at h
  split at h
  · simp only [Res.bind_eq_ok] at h
    obtain ⟨r, hr, _, _, _, _, h⟩ := h
    simp only [Res.ok.injEq] at h
    rw [← h]; exact ⟨hl, parseRhs_declared hr⟩
  · simp only [Res.bind_eq_ok] at h
    obtain ⟨_, _, _, _, h⟩ := h
    simp only [Res.ok.injEq] at h
    rw [← h]; exact ⟨hl, trivial⟩

theorem betweenField_declared {env : Env} {rs : RelSpace} {n : Option NamedInfo} {h : FieldHdr} {t : Ty}
    {b : Bound} {p : Option Bool} (e : betweenField env rs n h t = .ok (some (b, p))) :
    b.Declared rs := by
  unfold betweenField at e
  rw [Res.bind_eq_ok] at e
  obtain ⟨d, -, e⟩ := e
  split at e
  · rw [Res.map_eq_ok] at e
    obtain ⟨c, hc, e⟩ := e
    simp only [Option.some.injEq, Prod.mk.injEq] at e
    rw [← e.1]; exact parseColIdent_declared hc
  · rw [Res.bind_eq_ok] at e
    obtain ⟨a, -, e⟩ := e
    split at e
    · rw [Res.map_eq_ok] at e
      obtain ⟨c, hc, e⟩ := e
      simp only [Option.some.injEq, Prod.mk.injEq] at e
      rw [← e.1]; trivial
    · simp at e

theorem betweenBounds_declared {env : Env} {rs : RelSpace} {t : Ty} {b : Bound × Bound}
    (e : betweenBounds env rs t = .ok b) : b.1.Declared rs ∧ b.2.Declared rs := by
  unfold betweenBounds at e
  split at e
  · simp only [Res.bind_eq_ok] at e
    obtain ⟨b1, h1, b2, h2, e⟩ := e
    have d1 : ∀ x p, b1 = some (x, p) → x.Declared rs := by
      rintro x p rfl; exact betweenField_declared h1
    have d2 : ∀ x p, b2 = some (x, p) → x.Declared rs := by
      rintro x p rfl; exact betweenField_declared h2
    rcases b1 with _ | ⟨x, _ | _ | _⟩ <;> rcases b2 with _ | ⟨y, _ | _ | _⟩ <;>
      simp [setBound] at e <;> rw [← e]
    · exact ⟨d2 _ _ rfl, d1 _ _ rfl⟩
    · exact ⟨d1 _ _ rfl, d2 _ _ rfl⟩
  · simp at e

theorem whereLeaf_declared {env : Env} {rs : RelSpace} {h : FieldHdr} {t : Ty} {c : WItem}
    (e : whereLeaf env rs h t = .ok (some c)) : DeclItem rs c := by
  unfold whereLeaf at e
  simp only at e
  split at e
  · rw [whereDirective, Res.bind_eq_ok] at e
    obtain ⟨d, -, e⟩ := e
    split at e
    · simp only [Res.bind_eq_ok, Res.map_eq_ok] at e
      obtain ⟨lhs, h1, c', h2, h3⟩ := e
      simp only [Option.some.injEq] at h3
      rw [← h3]
      exact .column _ (colCond_declared (parseColIdent_declared h1) h2)
    · simp at e
  · split at e
    · unfold whereBetween at e
      simp only [Res.bind_eq_ok, Res.map_eq_ok, Option.some.injEq] at e
      obtain ⟨_, _, b, hb, cid, h1, h2⟩ := e
      rw [← h2]
      have := betweenBounds_declared hb
      exact .between _ (parseColIdent_declared h1) this.1 this.2
    · unfold whereField at e
      simp only [Res.bind_eq_ok] at e
      obtain ⟨cid, h1, p, _, _, _, _, _, _, _, _, _, h2⟩ := e
      simp only [Res.ok.injEq, Option.some.injEq] at h2
      rw [← h2]
      exact .field _ (parseColIdent_declared h1)

/-! ### The invariant -/

/-- A join directive's conditions. -/
def JoinDir.conds (d : JoinDir) : List ColCond :=
  d.items.filterMap fun i => match i with
    | .cond c => some c
    | .bool _ => none

/-- The clauses of a query fit its kind, its records and the declared relations. -/
structure Fits (q : Query) (rs : RelSpace) : Prop where
  limit : q.limit ≠ none → q.kind.isSelect = true
  offset : q.offset ≠ none → q.kind.isSelect = true
  orderBy : ∀ l, q.orderBy = some l → q.kind.isSelect = true ∧ ∀ i ∈ l, Declared rs i.colIdent
  optional : ∀ l, q.optional = some l → q.kind.isSelect = true ∧
    ∀ c ∈ l.items, q.rel.type.hasFieldWithColumn c.name = true ∧ Declared rs c
  default : ∀ l, q.default = some l → (q.kind = .insert ∨ q.kind = .update) ∧
    ∀ c ∈ l.items, Declared rs c
  force : ∀ l, q.force = some l → (q.kind = .insert ∨ q.kind = .update) ∧
    ∀ c ∈ l.items, q.rel.type.hasFieldWithColumn c.name = true ∧ Declared rs c
  ret : ∀ l, q.ret = some l → q.kind.isSelect = false ∧ q.rel.type.fields ≠ [] ∧
    ∀ c ∈ l.items, q.rel.type.hasFieldWithColumn c.name = true ∧ Declared rs c
  override : q.override ≠ none → q.kind = .insert
  all : q.all = true → q.kind = .update ∨ q.kind = .delete
  onConflict : ∀ oc, q.onConflict = some oc → q.kind = .insert ∧ oc.targets ≤ 1 ∧ oc.actions ≤ 1 ∧
    (oc.update ≠ none → oc.targets = 1)
  join : ∀ j, q.join = some j →
    ((tolower j.fieldName = b!"join" ∧ q.kind.isSelect = true) ∨
     (tolower j.fieldName = b!"from" ∧ q.kind = .update) ∨
     (tolower j.fieldName = b!"using" ∧ q.kind = .delete)) ∧
    ∀ d ∈ j.directives, ∀ c ∈ d.conds, c.Sound ∧ LhsOk d.relIdent c.lhs ∧ c.Declared rs
  wher : ∀ w, q.wher = some w → ∀ i ∈ w.items, SoundItem i ∧ DeclItem rs i
  linked : ∀ w, q.wher = some w → linked true w.items = true
  joinLinked : ∀ j, q.join = some j → ∀ d ∈ j.directives, ∃ l, d.items = (withOps l).drop 1
  affected : ∀ x, q.rowsAffected = some x → ∃ n, isIntegerType (.basic x.2 n) = true

theorem Fits.grows {q : Query} {rs rs' : RelSpace} (f : Fits q rs) (g : Grows rs rs') : Fits q rs' where
  limit := f.limit
  offset := f.offset
  orderBy l h := ⟨(f.orderBy l h).1, fun i hi => ((f.orderBy l h).2 i hi).grows g⟩
  optional l h := ⟨(f.optional l h).1, fun c hc =>
    ⟨((f.optional l h).2 c hc).1, ((f.optional l h).2 c hc).2.grows g⟩⟩
  default l h := ⟨(f.default l h).1, fun c hc => ((f.default l h).2 c hc).grows g⟩
  force l h := ⟨(f.force l h).1, fun c hc =>
    ⟨((f.force l h).2 c hc).1, ((f.force l h).2 c hc).2.grows g⟩⟩
  ret l h := ⟨(f.ret l h).1, (f.ret l h).2.1, fun c hc =>
    ⟨((f.ret l h).2.2 c hc).1, ((f.ret l h).2.2 c hc).2.grows g⟩⟩
  override := f.override
  all := f.all
  onConflict := f.onConflict
  join j h := ⟨(f.join j h).1, fun d hd c hc =>
    ⟨((f.join j h).2 d hd c hc).1, ((f.join j h).2 d hd c hc).2.1,
     ((f.join j h).2 d hd c hc).2.2.grows g⟩⟩
  wher w h := fun i hi => ⟨((f.wher w h) i hi).1, ((f.wher w h) i hi).2.grows g⟩
  linked := f.linked
  joinLinked := f.joinLinked
  affected := f.affected

/-! ### One step -/

theorem analyzeWhere_fits {env : Env} {s s' : St} {h : FieldHdr} {t : Ty} (f : Fits s.q s.rs)
    (e : analyzeWhere env s h t = .ok s') : Fits s'.q s'.rs ∧ Grows s.rs s'.rs := by
  unfold analyzeWhere at e
  rw [Res.bind_eq_ok] at e
  obtain ⟨_, _, e⟩ := e
  split at e
  · simp at e
  · rw [Res.map_eq_ok] at e
    obtain ⟨items, hi, rfl⟩ := e
    refine ⟨{ f with wher := ?_, linked := ?_ }, .rfl⟩
    rotate_left
    · intro w hw
      simp only [Option.some.injEq] at hw
      rw [← hw]
      exact C32_linked env s.rs _ _ _ hi
    intro w hw i hin
    simp only [Option.some.injEq] at hw
    rw [← hw] at hin
    exact ⟨C54_where env s.rs _ _ _ hi i hin,
      whereItems_all env s.rs (DeclItem s.rs)
        ⟨.bool, .nested, fun _ _ _ => whereLeaf_declared⟩ _ [] _ _ (by simp) hi i hin⟩

theorem analyzeFilterField_fits {s s' : St} {h : FieldHdr} (f : Fits s.q s.rs)
    (e : analyzeFilterField s h = .ok s') : Fits s'.q s'.rs ∧ Grows s.rs s'.rs := by
  unfold analyzeFilterField at e
  rw [Res.map_eq_ok] at e
  obtain ⟨_, _, rfl⟩ := e
  exact ⟨{ f with }, .rfl⟩

theorem analyzeAll_fits {s s' : St} (f : Fits s.q s.rs)
    (e : analyzeAll s = .ok s') : Fits s'.q s'.rs ∧ Grows s.rs s'.rs := by
  unfold analyzeAll at e
  simp only [Res.bind_eq_ok, Res.map_eq_ok] at e
  obtain ⟨_, h1, _, _, _, _, rfl⟩ := e
  have h1 := failIf_ok h1
  exact ⟨{ f with all := fun _ => by simpa [Decidable.or_iff_not_imp_left] using h1 }, .rfl⟩

theorem analyzeResult_fits {env : Env} {s s' : St} {h : FieldHdr} {t : Ty} (f : Fits s.q s.rs)
    (e : analyzeResult env s h t = .ok s') : Fits s'.q s'.rs ∧ Grows s.rs s'.rs := by
  unfold analyzeResult at e
  simp only [Res.bind_eq_ok, Res.map_eq_ok] at e
  obtain ⟨_, _, _, _, rfl⟩ := e
  exact ⟨{ f with }, .rfl⟩

theorem analyzeRowsAffected_fits {s s' : St} {h : FieldHdr} {t : Ty} (f : Fits s.q s.rs)
    (e : analyzeRowsAffected s h t = .ok s') : Fits s'.q s'.rs ∧ Grows s.rs s'.rs := by
  unfold analyzeRowsAffected at e
  simp only [Res.bind_eq_ok, Res.map_eq_ok] at e
  obtain ⟨_, _, _, hi, rfl⟩ := e
  have hi : isIntegerType t = true := by simpa using failIf_ok hi
  refine ⟨{ f with affected := ?_ }, .rfl⟩
  intro x hx
  simp only [Option.some.injEq] at hx
  rw [← hx]
  cases t with
  | basic k n => exact ⟨n, hi⟩
  | _ => simp [isIntegerType] at hi

theorem analyzeErrorHandler_fits {s s' : St} {h : FieldHdr} {b : Bool} (f : Fits s.q s.rs)
    (e : analyzeErrorHandler s h b = .ok s') : Fits s'.q s'.rs ∧ Grows s.rs s'.rs := by
  unfold analyzeErrorHandler at e
  rw [Res.map_eq_ok] at e
  obtain ⟨_, _, rfl⟩ := e
  exact ⟨{ f with }, .rfl⟩

theorem analyzeContext_fits {s s' : St} {h : FieldHdr} (f : Fits s.q s.rs)
    (e : analyzeContext s h = .ok s') : Fits s'.q s'.rs ∧ Grows s.rs s'.rs := by
  unfold analyzeContext at e
  rw [Res.map_eq_ok] at e
  obtain ⟨_, _, rfl⟩ := e
  exact ⟨{ f with }, .rfl⟩

theorem checkColumns_ok {rt : RelType} {l : ColIdentList} {u : Unit} (e : checkColumns rt l = .ok u) :
    ∀ c ∈ l.items, rt.hasFieldWithColumn c.name = true := by
  unfold checkColumns at e
  have := failIf_ok e
  simpa using this

theorem analyzeReturn_fits {s s' : St} {h : FieldHdr} (f : Fits s.q s.rs)
    (e : analyzeReturn s h = .ok s') : Fits s'.q s'.rs ∧ Grows s.rs s'.rs := by
  unfold analyzeReturn at e
  simp only [Res.bind_eq_ok, Res.map_eq_ok] at e
  obtain ⟨_, h0, _, hc, l, hl, _, h1, rfl⟩ := e
  have h0 := failIf_ok h0
  refine ⟨{ f with ret := ?_ }, .rfl⟩
  intro l' hl'
  simp only [Option.some.injEq] at hl'
  subst hl'
  exact ⟨(resultChecks_ok hc).1, by simpa using h0,
    fun c hc => ⟨checkColumns_ok h1 c hc, parseColIdentList_declared hl c hc⟩⟩

theorem analyzeLimit_fits {s s' : St} {h : FieldHdr} {t : Ty} (f : Fits s.q s.rs)
    (e : analyzeLimit s h t = .ok s') : Fits s'.q s'.rs ∧ Grows s.rs s'.rs := by
  unfold analyzeLimit at e
  simp only [Res.bind_eq_ok, Res.map_eq_ok] at e
  obtain ⟨_, h1, _, _, _, _, rfl⟩ := e
  have h1 := failIf_ok h1
  exact ⟨{ f with limit := fun _ => by simpa using h1 }, .rfl⟩

theorem analyzeOffset_fits {s s' : St} {h : FieldHdr} {t : Ty} (f : Fits s.q s.rs)
    (e : analyzeOffset s h t = .ok s') : Fits s'.q s'.rs ∧ Grows s.rs s'.rs := by
  unfold analyzeOffset at e
  simp only [Res.bind_eq_ok, Res.map_eq_ok] at e
  obtain ⟨_, h1, _, _, _, _, rfl⟩ := e
  have h1 := failIf_ok h1
  exact ⟨{ f with offset := fun _ => by simpa using h1 }, .rfl⟩

theorem orderItems_declared {rs : RelSpace} {vs : List Bytes} {l : List OrderItem}
    (e : orderItems rs vs = .ok l) : ∀ i ∈ l, Declared rs i.colIdent := by
  induction vs generalizing l with
  | nil => rw [orderItems] at e; simp only [Res.ok.injEq] at e; subst e; simp
  | cons v vs ih =>
    rw [orderItems] at e
    split at e
    · exact ih e
    · simp only [Res.bind_eq_ok, Res.map_eq_ok] at e
      obtain ⟨i, hi, is, his, rfl⟩ := e
      unfold orderItem at hi
      simp only [Res.bind_eq_ok, Res.map_eq_ok] at hi
      obtain ⟨p, _, c, hc, rfl⟩ := hi
      intro j hj
      rcases List.mem_cons.1 hj with rfl | hj
      · exact parseColIdent_declared hc
      · exact ih his j hj

theorem analyzeOrderBy_fits {s s' : St} {h : FieldHdr} (f : Fits s.q s.rs)
    (e : analyzeOrderBy s h = .ok s') : Fits s'.q s'.rs ∧ Grows s.rs s'.rs := by
  unfold analyzeOrderBy at e
  simp only [Res.bind_eq_ok, Res.map_eq_ok] at e
  obtain ⟨_, h1, _, _, l, hl, rfl⟩ := e
  have h1 := failIf_ok h1
  refine ⟨{ f with orderBy := ?_ }, .rfl⟩
  intro l' hl'
  simp only [Option.some.injEq] at hl'
  subst hl'
  exact ⟨by simpa using h1, orderItems_declared hl⟩

theorem analyzeOverride_fits {s s' : St} {h : FieldHdr} (f : Fits s.q s.rs)
    (e : analyzeOverride s h = .ok s') : Fits s'.q s'.rs ∧ Grows s.rs s'.rs := by
  unfold analyzeOverride at e
  rw [Res.bind_eq_ok] at e
  obtain ⟨_, h1, e⟩ := e
  have h1 := failIf_ok h1
  split at e
  · simp only [Res.ok.injEq] at e; subst e
    exact ⟨{ f with override := fun _ => by simpa using h1 }, .rfl⟩
  · split at e
    · simp only [Res.ok.injEq] at e; subst e
      exact ⟨{ f with override := fun _ => by simpa using h1 }, .rfl⟩
    · simp at e

theorem analyzeDefault_fits {s s' : St} {h : FieldHdr} (f : Fits s.q s.rs)
    (e : analyzeDefault s h = .ok s') : Fits s'.q s'.rs ∧ Grows s.rs s'.rs := by
  unfold analyzeDefault at e
  simp only [Res.bind_eq_ok, Res.map_eq_ok] at e
  obtain ⟨_, h1, l, hl, rfl⟩ := e
  have h1 := failIf_ok h1
  refine ⟨{ f with default := ?_ }, .rfl⟩
  intro l' hl'
  simp only [Option.some.injEq] at hl'
  subst hl'
  exact ⟨by simpa [Decidable.or_iff_not_imp_left] using h1, parseColIdentList_declared hl⟩

theorem analyzeForce_fits {s s' : St} {h : FieldHdr} (f : Fits s.q s.rs)
    (e : analyzeForce s h = .ok s') : Fits s'.q s'.rs ∧ Grows s.rs s'.rs := by
  unfold analyzeForce at e
  simp only [Res.bind_eq_ok, Res.map_eq_ok] at e
  obtain ⟨_, h1, l, hl, _, h2, rfl⟩ := e
  have h1 := failIf_ok h1
  refine ⟨{ f with force := ?_ }, .rfl⟩
  intro l' hl'
  simp only [Option.some.injEq] at hl'
  subst hl'
  exact ⟨by simpa [Decidable.or_iff_not_imp_left] using h1, fun c hc => ⟨checkColumns_ok h2 c hc, parseColIdentList_declared hl c hc⟩⟩

theorem analyzeOptional_fits {s s' : St} {h : FieldHdr} (f : Fits s.q s.rs)
    (e : analyzeOptional s h = .ok s') : Fits s'.q s'.rs ∧ Grows s.rs s'.rs := by
  unfold analyzeOptional at e
  simp only [Res.bind_eq_ok, Res.map_eq_ok] at e
  obtain ⟨_, h1, l, hl, _, h2, rfl⟩ := e
  have h1 := failIf_ok h1
  refine ⟨{ f with optional := ?_ }, .rfl⟩
  intro l' hl'
  simp only [Option.some.injEq] at hl'
  subst hl'
  exact ⟨by simpa using h1, fun c hc => ⟨checkColumns_ok h2 c hc, parseColIdentList_declared hl c hc⟩⟩

theorem analyzeOnConflict_fits {s s' : St} {h : FieldHdr} {t : Ty} (f : Fits s.q s.rs)
    (e : analyzeOnConflict s h t = .ok s') : Fits s'.q s'.rs ∧ Grows s.rs s'.rs := by
  have e0 := e
  unfold analyzeOnConflict at e
  rw [Res.bind_eq_ok] at e
  obtain ⟨_, _, e⟩ := e
  split at e
  · simp at e
  · next n fs ht =>
    simp only [Res.bind_eq_ok, Res.map_eq_ok] at e
    obtain ⟨oc, _, _, _, rfl⟩ := e
    obtain ⟨hk, oc', h1, _, h2, _, h3, h4⟩ := C35_on_conflict _ _ _ _ _ _ ht e0
    refine ⟨{ f with onConflict := ?_ }, .rfl⟩
    intro oc'' ho
    simp only [Option.some.injEq] at h1 ho
    subst ho h1
    exact ⟨hk, h2, h3, h4⟩

/-! ### Joins -/

/-- What holds of the conditions of a join directive. -/
def GoodJoin (rs : RelSpace) (d : JoinDir) : Prop :=
  ∀ c ∈ d.conds, c.Sound ∧ LhsOk d.relIdent c.lhs ∧ c.Declared rs

theorem GoodJoin.grows {rs rs' : RelSpace} {d : JoinDir} (h : GoodJoin rs d) (g : Grows rs rs') :
    GoodJoin rs' d := fun c hc => ⟨(h c hc).1, (h c hc).2.1, (h c hc).2.2.grows g⟩

theorem joinCond_declared {rs : RelSpace} {r : RelIdent} {v : Bytes} {c : ColCond}
    (e : joinCond rs r v = .ok c) : c.Declared rs := by
  unfold joinCond at e
  simp only [Res.bind_eq_ok] at e
  obtain ⟨cid, h1, _, _, h3⟩ := e
  exact colCond_declared (parseColIdent_declared h1) h3

theorem joinAlts_good {rs : RelSpace} {r : RelIdent} {items : List JItem} {b : Bool}
    {vs : List Bytes} {out : List JItem} (e : joinAlts rs r items b vs = .ok out)
    (h : ∀ c, .cond c ∈ items → c.Sound ∧ LhsOk r c.lhs ∧ c.Declared rs) :
    ∀ c, .cond c ∈ out → c.Sound ∧ LhsOk r c.lhs ∧ c.Declared rs := by
  induction vs generalizing items b with
  | nil => rw [joinAlts] at e; simp only [Res.ok.injEq] at e; subst e; exact h
  | cons v vs ih =>
    rw [joinAlts, Res.bind_eq_ok] at e
    obtain ⟨c, hc, e⟩ := e
    refine ih e ?_
    intro d hd
    simp only [List.mem_append, List.mem_singleton, JItem.cond.injEq] at hd
    rcases hd with hd | rfl
    · apply h
      split at hd
      · simpa using hd
      · exact hd
    · exact ⟨C55_sound _ _ _ _ hc, C36_sound _ _ _ _ hc, joinCond_declared hc⟩

theorem joinConds_good {rs : RelSpace} {r : RelIdent} {items : List JItem}
    {vs : List Bytes} {out : List JItem} (e : joinConds rs r items vs = .ok out)
    (h : ∀ c, .cond c ∈ items → c.Sound ∧ LhsOk r c.lhs ∧ c.Declared rs) :
    ∀ c, .cond c ∈ out → c.Sound ∧ LhsOk r c.lhs ∧ c.Declared rs := by
  induction vs generalizing items with
  | nil => rw [joinConds] at e; simp only [Res.ok.injEq] at e; subst e; exact h
  | cons v vs ih =>
    rw [joinConds, Res.bind_eq_ok] at e
    obtain ⟨its, h1, e⟩ := e
    exact ih e (joinAlts_good h1 h)

theorem mem_conds {d : JoinDir} {c : ColCond} (h : c ∈ d.conds) : .cond c ∈ d.items := by
  unfold JoinDir.conds at h
  rw [List.mem_filterMap] at h
  obtain ⟨i, hi, h⟩ := h
  cases i with
  | bool b => simp at h
  | cond c' => simp only [Option.some.injEq] at h; rw [← h]; exact hi

theorem joinFields_good {rs rs' : RelSpace} {j j' : JoinStruct} {fs : List Field}
    (e : joinFields rs j fs = .ok (rs', j')) (h : ∀ d ∈ j.directives, GoodJoin rs d) :
    j'.fieldName = j.fieldName ∧ Grows rs rs' ∧ ∀ d ∈ j'.directives, GoodJoin rs' d := by
  induction fs generalizing rs j with
  | nil =>
    rw [joinFields] at e
    simp only [Res.ok.injEq, Prod.mk.injEq] at e
    rw [← e.1, ← e.2]
    exact ⟨rfl, .rfl, h⟩
  | cons f fs ih =>
    obtain ⟨hd, t⟩ := f
    rw [joinFields] at e
    split at e
    · exact ih e h
    · simp only [Res.bind_eq_ok] at e
      obtain ⟨d, _, p, hp, e⟩ := e
      have key : p.2.fieldName = j.fieldName ∧ Grows rs p.1 ∧ ∀ d ∈ p.2.directives, GoodJoin p.1 d := by
        split at hp
        · unfold joinRelation at hp
          split at hp
          · simp at hp
          · split at hp
            · simp at hp
            · simp only [Res.bind_eq_ok, Res.map_eq_ok] at hp
              obtain ⟨rid, _, rs1, h1, rfl⟩ := hp
              have g := addToRelSpace_grows h1
              exact ⟨rfl, g, fun d hd => (h d hd).grows g⟩
        · split at hp
          · unfold joinDirective at hp
            simp only [Res.bind_eq_ok, Res.map_eq_ok] at hp
            obtain ⟨rid, _, rs1, h1, items, h2, rfl⟩ := hp
            have g := addToRelSpace_grows h1
            refine ⟨rfl, g, ?_⟩
            intro d hd
            simp only [List.mem_append, List.mem_singleton] at hd
            rcases hd with hd | rfl
            · exact (h d hd).grows g
            · intro c hc
              exact joinConds_good h2 (by simp) c (mem_conds hc)
          · simp at hp
      obtain ⟨k1, k2, k3⟩ := key
      obtain ⟨i1, i2, i3⟩ := ih e k3
      exact ⟨i1.trans k1, k2.trans i2, i3⟩

theorem joinFields_linked {rs rs' : RelSpace} {j j' : JoinStruct} {fs : List Field}
    (e : joinFields rs j fs = .ok (rs', j'))
    (h : ∀ d ∈ j.directives, ∃ l, d.items = (withOps l).drop 1) :
    ∀ d ∈ j'.directives, ∃ l, d.items = (withOps l).drop 1 := by
  induction fs generalizing rs j with
  | nil =>
    rw [joinFields] at e
    simp only [Res.ok.injEq, Prod.mk.injEq] at e
    rw [← e.2]
    exact h
  | cons f fs ih =>
    obtain ⟨hd, t⟩ := f
    rw [joinFields] at e
    split at e
    · exact ih e h
    · simp only [Res.bind_eq_ok] at e
      obtain ⟨d, _, p, hp, e⟩ := e
      refine ih e ?_
      split at hp
      · unfold joinRelation at hp
        split at hp
        · simp at hp
        · split at hp
          · simp at hp
          · simp only [Res.bind_eq_ok, Res.map_eq_ok] at hp
            obtain ⟨rid, _, rs1, h1, rfl⟩ := hp
            exact h
      · split at hp
        · unfold joinDirective at hp
          simp only [Res.bind_eq_ok, Res.map_eq_ok] at hp
          obtain ⟨rid, _, rs1, h1, items, h2, rfl⟩ := hp
          intro d hd
          simp only [List.mem_append, List.mem_singleton] at hd
          rcases hd with hd | rfl
          · exact h d hd
          · obtain ⟨gs, _, h3⟩ := C55_connectives _ _ _ _ h2
            exact ⟨_, h3⟩
        · simp at hp

theorem analyzeJoin_fits {s s' : St} {h : FieldHdr} {t : Ty} (f : Fits s.q s.rs)
    (hn : tolower h.name = b!"join" ∨ tolower h.name = b!"from" ∨ tolower h.name = b!"using")
    (e : analyzeJoin s h t = .ok s') : Fits s'.q s'.rs ∧ Grows s.rs s'.rs := by
  unfold analyzeJoin at e
  rw [Res.bind_eq_ok] at e
  obtain ⟨_, hk, e⟩ := e
  have hk := failIf_ok hk
  split at e
  · simp at e
  · next n fs ht =>
    rw [Res.map_eq_ok] at e
    obtain ⟨p, hp, rfl⟩ := e
    obtain ⟨h1, h2, h3⟩ := joinFields_good hp (by simp)
    have f' := f.grows h2
    refine ⟨{ f' with join := ?_, joinLinked := ?_ }, h2⟩
    rotate_left
    · intro j hj
      simp only [Option.some.injEq] at hj
      subst hj
      exact joinFields_linked hp (by simp)
    intro j hj
    simp only [Option.some.injEq] at hj
    subst hj
    refine ⟨?_, h3⟩
    rw [h1]
    rcases hn with hn | hn | hn
    · left; rw [hn] at hk; exact ⟨hn, by simpa using hk⟩
    · right; left; rw [hn] at hk; exact ⟨hn, by simpa using hk⟩
    · right; right; rw [hn] at hk; exact ⟨hn, by simpa using hk⟩

/-! ### The whole query -/

theorem queryStep_fits {env : Env} {s s' : St} {fd : Field} (f : Fits s.q s.rs)
    (e : queryStep env s fd = .ok s') : Fits s'.q s'.rs ∧ Grows s.rs s'.rs := by
  unfold queryStep at e
  split at e
  · simp only [Res.ok.injEq] at e; subst e; exact ⟨f, .rfl⟩
  · rw [Res.bind_eq_ok] at e
    obtain ⟨d, _, e⟩ := e
    split at e
    · unfold analyzeDirective at e
      split at e
      · exact analyzeAll_fits f e
      · exact analyzeDefault_fits f e
      · exact analyzeForce_fits f e
      · exact analyzeOptional_fits f e
      · exact analyzeReturn_fits f e
      · exact analyzeLimit_fits f e
      · exact analyzeOffset_fits f e
      · exact analyzeOrderBy_fits f e
      · exact analyzeOverride_fits f e
      · simp at e
    · unfold analyzeField at e
      split at e
      · exact analyzeWhere_fits f e
      · next hl =>
        refine analyzeJoin_fits f ?_ e
        have hm := lookup_fld _ _ hl
        simpa [fldTable] using hm
      · exact analyzeOnConflict_fits f e
      · exact analyzeResult_fits f e
      · exact analyzeLimit_fits f e
      · exact analyzeOffset_fits f e
      · exact analyzeRowsAffected_fits f e
      · unfold analyzeTypedField at e
        rw [Res.bind_eq_ok] at e
        obtain ⟨_, _, e⟩ := e
        split at e
        · rw [Res.bind_eq_ok] at e
          obtain ⟨_, _, e⟩ := e
          split at e
          · exact analyzeFilterField_fits f e
          split at e
          · exact analyzeErrorHandler_fits f e
          split at e
          · exact analyzeErrorHandler_fits f e
          split at e
          · exact analyzeContext_fits f e
          · simp only [Res.ok.injEq] at e; subst e; exact ⟨f, .rfl⟩
        · simp only [Res.ok.injEq] at e; subst e; exact ⟨f, .rfl⟩

theorem queryFields_fits {env : Env} {s s' : St} {fs : List Field} (f : Fits s.q s.rs)
    (e : queryFields env s fs = .ok s') : Fits s'.q s'.rs := by
  induction fs generalizing s with
  | nil => rw [queryFields] at e; simp only [Res.ok.injEq] at e; subst e; exact f
  | cons fd fs ih =>
    rw [queryFields, Res.bind_eq_ok] at e
    obtain ⟨s1, h1, e⟩ := e
    exact ih (queryStep_fits f h1).1 e

theorem Fits.empty (n : Bytes) (k : QKind) (r : RelField) (rs : RelSpace) :
    Fits { typeName := n, kind := k, rel := r } rs := by
  constructor <;> simp

theorem analyzeQuery_fits {env : Env} {cache : Cache} {n : Bytes} {fs : List Field} {s : St}
    (e : analyzeQuery env cache n fs = .ok s) : Fits s.q s.rs := by
  obtain ⟨k, r, s1, _, _, _, h⟩ := analyzeQuery_split e
  exact queryFields_fits (Fits.empty ..) h

/-- C56: the clauses of an accepted query fit its kind. -/
theorem C56_kinds (env : Env) (cache : Cache) (n : Bytes) (fs : List Field) (s : St)
    (e : analyzeQuery env cache n fs = .ok s) :
    (s.q.limit ≠ none ∨ s.q.offset ≠ none ∨ s.q.orderBy ≠ none ∨ s.q.optional ≠ none →
      s.q.kind.isSelect = true) ∧
    (s.q.default ≠ none ∨ s.q.force ≠ none → s.q.kind = .insert ∨ s.q.kind = .update) ∧
    (s.q.override ≠ none ∨ s.q.onConflict ≠ none → s.q.kind = .insert) ∧
    (s.q.all = true → s.q.kind = .update ∨ s.q.kind = .delete) ∧
    (s.q.ret ≠ none → s.q.kind.isSelect = false) ∧
    (∀ j, s.q.join = some j →
      (tolower j.fieldName = b!"join" ∧ s.q.kind.isSelect = true) ∨
      (tolower j.fieldName = b!"from" ∧ s.q.kind = .update) ∨
      (tolower j.fieldName = b!"using" ∧ s.q.kind = .delete)) := by
  have f := analyzeQuery_fits e
  refine ⟨?_, ?_, ?_, f.all, ?_, fun j hj => (f.join j hj).1⟩
  · rintro (h | h | h | h)
    · exact f.limit h
    · exact f.offset h
    · obtain ⟨l, hl⟩ := Option.ne_none_iff_exists'.1 h; exact (f.orderBy l hl).1
    · obtain ⟨l, hl⟩ := Option.ne_none_iff_exists'.1 h; exact (f.optional l hl).1
  · rintro (h | h)
    · obtain ⟨l, hl⟩ := Option.ne_none_iff_exists'.1 h; exact (f.default l hl).1
    · obtain ⟨l, hl⟩ := Option.ne_none_iff_exists'.1 h; exact (f.force l hl).1
  · rintro (h | h)
    · exact f.override h
    · obtain ⟨l, hl⟩ := Option.ne_none_iff_exists'.1 h; exact (f.onConflict l hl).1
  · intro h
    obtain ⟨l, hl⟩ := Option.ne_none_iff_exists'.1 h; exact (f.ret l hl).1

/-- C56: and an accepted query as a whole satisfies C35, C36, C54 and C55. -/
theorem C56_sound (env : Env) (cache : Cache) (n : Bytes) (fs : List Field) (s : St)
    (e : analyzeQuery env cache n fs = .ok s) :
    (∀ oc, s.q.onConflict = some oc → oc.targets ≤ 1 ∧ oc.actions ≤ 1 ∧
      (oc.update ≠ none → oc.targets = 1)) ∧
    (∀ j, s.q.join = some j → ∀ d ∈ j.directives, ∀ c, .cond c ∈ d.items →
      c.Sound ∧ LhsOk d.relIdent c.lhs) ∧
    (∀ w, s.q.wher = some w → ∀ i ∈ w.items, SoundItem i) := by
  have f := analyzeQuery_fits e
  refine ⟨fun oc h => (f.onConflict oc h).2, ?_, fun w h i hi => (f.wher w h i hi).1⟩
  intro j hj d hd c hc
  have hc : c ∈ d.conds := List.mem_filterMap.2 ⟨_, hc, rfl⟩
  have := (f.join j hj).2 d hd c hc
  exact ⟨this.1, this.2.1⟩

/-- C57: columns named by Return, Force and Optional are columns of the records. -/
theorem C57_columns (env : Env) (cache : Cache) (n : Bytes) (fs : List Field) (s : St)
    (e : analyzeQuery env cache n fs = .ok s) (l : ColIdentList)
    (h : s.q.ret = some l ∨ s.q.force = some l ∨ s.q.optional = some l) :
    ∀ c ∈ l.items, ∃ f ∈ s.q.rel.type.fields, f.colIdent.name = c.name := by
  have f := analyzeQuery_fits e
  intro c hc
  have : s.q.rel.type.hasFieldWithColumn c.name = true := by
    rcases h with h | h | h
    · exact ((f.ret l h).2.2 c hc).1
    · exact ((f.force l h).2 c hc).1
    · exact ((f.optional l h).2 c hc).1
  unfold RelType.hasFieldWithColumn at this
  simpa using this

/-- C58: every qualifier in a clause of an accepted query is a relation the query declares. -/
theorem C58_qualifiers (env : Env) (cache : Cache) (n : Bytes) (fs : List Field) (s : St)
    (e : analyzeQuery env cache n fs = .ok s) :
    (∀ w, s.q.wher = some w → ∀ i ∈ w.items, DeclItem s.rs i) ∧
    (∀ j, s.q.join = some j → ∀ d ∈ j.directives, ∀ c, .cond c ∈ d.items → c.Declared s.rs) ∧
    (∀ l, s.q.orderBy = some l → ∀ i ∈ l, Declared s.rs i.colIdent) ∧
    (∀ l, s.q.ret = some l ∨ s.q.force = some l ∨ s.q.optional = some l ∨ s.q.default = some l →
      ∀ c ∈ l.items, Declared s.rs c) := by
  have f := analyzeQuery_fits e
  refine ⟨fun w h i hi => (f.wher w h i hi).2, ?_, fun l h => (f.orderBy l h).2, ?_⟩
  · intro j hj d hd c hc
    have hc : c ∈ d.conds := List.mem_filterMap.2 ⟨_, hc, rfl⟩
    exact ((f.join j hj).2 d hd c hc).2.2
  · rintro l (h | h | h | h) c hc
    · exact ((f.ret l h).2.2 c hc).2
    · exact ((f.force l h).2 c hc).2
    · exact ((f.optional l h).2 c hc).2
    · exact (f.default l h).2 c hc

/-! ### Examples and exceptions -/

def selectOut (r : R St) : Option (Option JoinStruct × Option ColIdentList × RelSpace) :=
  match r with
  | .ok s => some (s.q.join, s.q.default, s.rs)
  | _ => none

def joinFld (v : List Bytes) : Field :=
  ({ name := b!"Join" },
    .struct (.ofList [({ name := b!"_", tag := [(b!"sql", v)] }, gosqlDir b!"LeftJoin")]))

/-- A join of one table on `user_id`. -/
def joinOut (t : Bytes) : JoinStruct :=
  { fieldName := b!"Join", directives := [{ joinType := some .left, relIdent := { name := t, alias := b!"x" }
                                            items := [.cond { lhs := { qualifier := b!"x", name := b!"uid" }
                                                              rhs := .column { qualifier := b!"u", name := b!"id" }
                                                              pred := some .isEQ }] }] }

example : selectOut (analyzeQuery env0 [] b!"SelectUsers"
    [relFld (.slice userTy), joinFld [b!"posts:x", b!"x.uid = u.id"], whereFld]) =
    some (some (joinOut b!"posts"), none,
      [(b!"x", { name := b!"posts", alias := b!"x" }), (b!"u", { name := b!"users", alias := b!"u" })]) := by
  decide +kernel
example : codeOf (analyzeQuery env0 [] b!"SelectUsers"
    [relFld (.slice userTy), joinFld [b!"posts:x", b!"x.uid = v.id"], whereFld]) =
    some .unknownColumnQualifier := by decide +kernel
example : codeOf (analyzeQuery env0 [] b!"DeleteUsers"
    [relFld (.slice userTy), joinFld [b!"posts:x", b!"x.uid = u.id"], whereFld]) =
    some .illegalQueryField := by decide +kernel

def dirFld (d : Bytes) (v : List Bytes) : Field := ({ name := b!"_", tag := [(b!"sql", v)] }, gosqlDir d)

/-- C57: columns named by Default are not checked; those named by Force are. -/
theorem C57_not_default :
    (selectOut (analyzeQuery env0 [] b!"InsertUser" [relFld (.ptr userTy), dirFld b!"Default" [b!"nosuch"]])).map
      (·.2.1) = some (some { items := [{ name := b!"nosuch" }] }) ∧
    codeOf (analyzeQuery env0 [] b!"InsertUser" [relFld (.ptr userTy), dirFld b!"Force" [b!"nosuch"]]) =
      some .columnFieldUnknown := by decide +kernel

/-- A record type in package `p` whose column is qualified by `u`. -/
def qualTy : Ty :=
  .named { name := b!"Row", pkg := some { path := b!"p", name := b!"p" } }
    (.struct (.ofList [({ name := b!"Id", tag := [(b!"sql", [b!"u.id"])] }, intTy)]))

def cacheAfter (r : R St) : Cache :=
  match r with
  | .ok s => s.cache
  | _ => []

def fieldCols (r : R St) : Option (List ColIdent × RelSpace) :=
  match r with
  | .ok s => some (s.q.rel.type.fields.map (·.colIdent), s.rs)
  | _ => none

/-- C58 does not extend to the columns of the records: a type analysed for one query is reused for the
next without checking its qualifiers, which the second query alone would reject. -/
theorem C58_not_cache :
    codeOf (analyzeQuery env0 [] b!"SelectRows"
      [({ name := b!"Rows", tag := [(b!"rel", [b!"users:x"])] }, .slice qualTy)]) =
      some .unknownColumnQualifier ∧
    fieldCols (analyzeQuery env0
      (cacheAfter (analyzeQuery env0 [] b!"SelectFirst" [relFld (.slice qualTy)])) b!"SelectRows"
      [({ name := b!"Rows", tag := [(b!"rel", [b!"users:x"])] }, .slice qualTy)]) =
      some ([{ qualifier := b!"u", name := b!"id" }], [(b!"x", { name := b!"users", alias := b!"x" })]) := by
  decide +kernel

/-- A second join struct replaces the first without an error; the relations of the first stay declared. -/
theorem C56_not_second_join :
    selectOut (analyzeQuery env0 [] b!"SelectUsers"
      [relFld (.slice userTy), joinFld [b!"posts:y", b!"y.uid = u.id"],
       ({ (joinFld [b!"docs:x", b!"x.uid = u.id"]).1 with name := b!"JOIN" },
        (joinFld [b!"docs:x", b!"x.uid = u.id"]).2)]) =
    some (some { joinOut b!"docs" with fieldName := b!"JOIN" }, none,
      [(b!"x", { name := b!"docs", alias := b!"x" }), (b!"y", { name := b!"posts", alias := b!"y" }),
       (b!"u", { name := b!"users", alias := b!"u" })]) := by decide +kernel

/-- A Column directive with a range or a list predicate and one right-hand side is accepted. -/
theorem C54_not_between_column :
    colCond [] { name := b!"a" } (parsePredicateExpr b!"a isbetween b") =
      .ok { lhs := { name := b!"a" }, rhs := .column { name := b!"b" }, pred := some .isBetween } ∧
    colCond [] { name := b!"a" } (parsePredicateExpr b!"a isin b") =
      .ok { lhs := { name := b!"a" }, rhs := .column { name := b!"b" }, pred := some .isIn } := by
  decide +kernel

end Verif.Analysis
