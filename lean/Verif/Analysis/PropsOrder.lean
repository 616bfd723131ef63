import Verif.Analysis.PropsDirective

/-
C103: the order of the fields of a query struct.
-/
namespace Verif.Analysis

/-! ### What the order may matter for -/

/-- The field is a directive of the library, by the name of its type in lower case. -/
def IsDir (n : Bytes) (f : Field) : Prop :=
  f.1.tag.has b!"rel" = false ∧ f.1.name = b!"_" ∧ ∃ d, OwnDirective d f.2 ∧ lower d = n

/-- The field is known by its name. -/
def IsNamed (n : Bytes) (f : Field) : Prop := f.1.tag.has b!"rel" = false ∧ tolower f.1.name = n

/-- The field is a join struct. -/
def IsJoin (f : Field) : Prop := IsNamed b!"join" f ∨ IsNamed b!"from" f ∨ IsNamed b!"using" f

/-- Both fields are the same directive, of those of which the last one counts, or both are on-conflict structs. -/
def Repeats (f g : Field) : Prop :=
  (∃ n ∈ [b!"orderby", b!"override", b!"default", b!"force", b!"optional"], IsDir n f ∧ IsDir n g) ∨
    (IsNamed b!"onconflict" f ∧ IsNamed b!"onconflict" g)

theorem Repeats.symm {f g : Field} (h : Repeats f g) : Repeats g f := by
  rcases h with ⟨n, hn, h1, h2⟩ | ⟨h1, h2⟩
  · exact .inl ⟨n, hn, h2, h1⟩
  · exact .inr ⟨h2, h1⟩

/-- Fields that follow each other are exchanged, none of them moving over a join struct from the left, none over its
like. -/
inductive Reorder : List Field → List Field → Prop
  | refl (fs) : Reorder fs fs
  | swap (pre post f g) (gs) : ¬ IsJoin f → ¬ Repeats f g → Reorder (pre ++ g :: f :: post) gs →
      Reorder (pre ++ f :: g :: post) gs

/-! ### More relations do no harm -/

/-- What is accepted on the left is accepted on the right, with the same result. -/
def Le {α : Type} (x y : R α) : Prop := ∀ a, x = .ok a → y = .ok a

theorem Le.rfl {α : Type} {x : R α} : Le x x := fun _ h => h

theorem Le.bind {α β : Type} {x y : R α} {f g : α → R β} (h : Le x y) (hf : ∀ a, Le (f a) (g a)) :
    Le (x.bind f) (y.bind g) := by
  intro b e
  rw [Res.bind_eq_ok] at e ⊢
  obtain ⟨a, h1, h2⟩ := e
  exact ⟨a, h a h1, hf a b h2⟩

theorem Le.map {α β : Type} {x y : R α} {f : α → β} (h : Le x y) : Le (x.map f) (y.map f) := by
  intro b e
  rw [Res.map_eq_ok] at e ⊢
  obtain ⟨a, h1, h2⟩ := e
  exact ⟨a, h a h1, h2⟩

theorem Le.ite {α : Type} {c : Prop} [Decidable c] {x y x' y' : R α} (h : Le x y) (h' : Le x' y') :
    Le (if c then x else x') (if c then y else y') := by split <;> assumption

/-- The relations on the left are there on the right. -/
def Sub (rs rs' : RelSpace) : Prop := ∀ k, (rs.get k).isSome = true → (rs'.get k).isSome = true

theorem Sub.rfl {rs : RelSpace} : Sub rs rs := fun _ h => h
theorem Sub.trans {a b c : RelSpace} (h : Sub a b) (h' : Sub b c) : Sub a c := fun k e => h' k (h k e)

theorem sub_cons (rs : RelSpace) (k : Bytes) (r : RelIdent) : Sub rs ((k, r) :: rs) := by
  intro q h
  simp only [RelSpace.get, List.lookup_cons] at h ⊢
  split
  · rfl
  · exact h

theorem addToRelSpace_sub {rs rs' : RelSpace} {i : RelIdent} (h : addToRelSpace rs i = .ok rs') : Sub rs rs' := by
  unfold addToRelSpace at h
  repeat' split at h
  all_goals first
    | (simp at h; done)
    | (simp only [Res.ok.injEq] at h; subst h; exact sub_cons _ _ _)

variable {rs rs' : RelSpace}

theorem parseColIdent_le (h : Sub rs rs') (v : Bytes) : Le (parseColIdent rs v) (parseColIdent rs' v) := by
  intro c e
  unfold parseColIdent at e ⊢
  split
  · rename_i hv
    rw [if_pos hv] at e
    cases hs : lastSplit '.' v with
    | none => rw [hs] at e; exact e
    | some p =>
      obtain ⟨q, n⟩ := p
      rw [hs] at e
      simp only at e ⊢
      cases hg : rs.get q with
      | none => rw [hg] at e; simp at e
      | some r =>
        have := h q (by rw [hg]; rfl)
        rw [hg] at e
        cases hg' : rs'.get q with
        | none => rw [hg'] at this; cases this
        | some r' => exact e
  · rename_i hv
    rw [if_neg hv] at e
    exact e

theorem parseColIdentsLoop_le (h : Sub rs rs') : ∀ vs : List Bytes,
    Le (parseColIdentsLoop rs vs) (parseColIdentsLoop rs' vs)
  | [] => Le.rfl
  | v :: vs => Le.bind (parseColIdent_le h v) fun _ => Le.map (parseColIdentsLoop_le h vs)

theorem parseColIdents_le (h : Sub rs rs') (vs : List Bytes) : Le (parseColIdents rs vs) (parseColIdents rs' vs) :=
  Le.ite Le.rfl (parseColIdentsLoop_le h vs)

theorem parseColIdentList_le (h : Sub rs rs') (vs : List Bytes) :
    Le (parseColIdentList rs vs) (parseColIdentList rs' vs) :=
  Le.ite Le.rfl (Le.map (parseColIdents_le h vs))

theorem parseColIdent_bad (v : Bytes) (e : ECode) (h : parseColIdent rs v = .err e) :
    e = .unknownColumnQualifier ∨ (e = .badColIdTagValue ∧ ∀ rs', parseColIdent rs' v = .err .badColIdTagValue) := by
  unfold parseColIdent at h
  split at h
  · split at h
    · split at h
      · simp only [Res.err.injEq] at h; exact .inl h.symm
      · simp at h
    · simp at h
  · rename_i hv
    simp only [Res.err.injEq] at h
    exact .inr ⟨h.symm, fun rs' => by unfold parseColIdent; rw [if_neg hv]⟩

theorem parseRhs_le (h : Sub rs rs') (v : Bytes) : Le (parseRhs rs v) (parseRhs rs' v) := by
  intro c e
  unfold parseRhs at e ⊢
  cases hc : parseColIdent rs v with
  | ok d => rw [hc] at e; rw [parseColIdent_le h v d hc]; exact e
  | panic => rw [hc] at e; simp at e
  | err x =>
    rw [hc] at e
    rcases parseColIdent_bad v x hc with rfl | ⟨rfl, hb⟩
    · simp at e
    · rw [hb rs']; exact e

theorem colCond_le (h : Sub rs rs') (l : ColIdent) (e : PExpr) : Le (colCond rs l e) (colCond rs' l e) :=
  Le.ite (Le.bind (parseRhs_le h _) fun _ => Le.rfl) Le.rfl

theorem whereDirective_le (h : Sub rs rs') (t : Ty) (e : PExpr) : Le (whereDirective rs t e) (whereDirective rs' t e) :=
  Le.bind Le.rfl fun _ => Le.ite (Le.bind (parseColIdent_le h _) fun _ => Le.map (colCond_le h _ _)) Le.rfl

theorem betweenField_le (h : Sub rs rs') (env : Env) (n : Option NamedInfo) (hd : FieldHdr) (t : Ty) :
    Le (betweenField env rs n hd t) (betweenField env rs' n hd t) :=
  Le.bind Le.rfl fun _ => Le.ite (Le.map (parseColIdent_le h _)) Le.rfl

theorem betweenBounds_le (h : Sub rs rs') (env : Env) (t : Ty) : Le (betweenBounds env rs t) (betweenBounds env rs' t) := by
  unfold betweenBounds
  split
  · exact Le.bind (betweenField_le h _ _ _ _) fun _ => Le.bind (betweenField_le h _ _ _ _) fun _ => Le.rfl
  · exact Le.rfl

theorem whereLeaf_le (h : Sub rs rs') (env : Env) (hd : FieldHdr) (t : Ty) :
    Le (whereLeaf env rs hd t) (whereLeaf env rs' hd t) :=
  Le.ite (whereDirective_le h _ _) (Le.ite
    (Le.bind Le.rfl fun _ => Le.bind (betweenBounds_le h _ _) fun _ => Le.map (parseColIdent_le h _))
    (Le.bind (parseColIdent_le h _) fun _ => Le.rfl))

mutual
theorem whereItems_le (h : Sub rs rs') (env : Env) (root : Option NamedInfo) (items : List WItem) : ∀ fs : Fields,
    Le (whereItems env rs root items fs) (whereItems env rs' root items fs)
  | .nil => by simp only [whereItems]; exact Le.rfl
  | .cons hd t rest => by
    simp only [whereItems]
    exact Le.bind Le.rfl fun _ => Le.ite (Le.bind Le.rfl fun _ => Le.ite
      (Le.bind (whereNested_le h env root t) fun _ => whereItems_le h env root _ rest)
      (Le.bind (whereLeaf_le h env hd t) fun _ => whereItems_le h env root _ rest))
      (whereItems_le h env root _ rest)
theorem whereNested_le (h : Sub rs rs') (env : Env) (root : Option NamedInfo) : ∀ t : Ty,
    Le (whereNested env rs root t) (whereNested env rs' root t)
  | .struct fs => by simp only [whereNested]; exact whereItems_le h env root [] fs
  | .named _ (.struct fs) => by simp only [whereNested]; exact whereItems_le h env root [] fs
  | .named _ (.named ..) | .named _ (.ptr _) | .named _ (.basic ..) | .named _ (.slice _) | .named _ (.array ..)
  | .named _ (.map ..) | .named _ .chan | .named _ (.func ..) | .named _ (.iface ..) => by
    simp only [whereNested]; exact Le.rfl
  | .ptr _ | .basic .. | .slice _ | .array .. | .map .. | .chan | .func .. | .iface .. => by
    simp only [whereNested]; exact Le.rfl
end

mutual
theorem fieldsOf_le (h : Sub rs rs') (env : Env) (pfx : Bytes) (sel : List SelNode) (imp : Bool) : ∀ fs : Fields,
    Le (fieldsOf env rs pfx sel imp fs) (fieldsOf env rs' pfx sel imp fs)
  | .nil => by simp only [fieldsOf]; exact Le.rfl
  | .cons hd t rest => by
    simp only [fieldsOf]
    exact Le.ite (fieldsOf_le h env pfx sel imp rest) (Le.bind Le.rfl fun p => Le.ite
      (Le.bind Le.rfl fun mode => Le.bind (descend_le h env _ _ _ t) fun _ => Le.map (fieldsOf_le h env pfx sel imp rest))
      (Le.bind (Le.bind (parseColIdent_le h _) fun _ => Le.rfl) fun _ => Le.map (fieldsOf_le h env pfx sel imp rest)))
theorem descend_le (h : Sub rs rs') (env : Env) (pfx : Bytes) (sel : List SelNode) (imp : Bool) : ∀ t : Ty,
    Le (descend env rs pfx sel imp t) (descend env rs' pfx sel imp t)
  | .struct fs => by simp only [descend]; exact fieldsOf_le h env pfx sel imp fs
  | .named _ u => by simp only [descend]; exact descend_le h env pfx sel imp u
  | .ptr u => by simp only [descend]; exact descend_le h env pfx sel imp u
  | .basic .. | .slice _ | .array .. | .map .. | .chan | .func .. | .iface .. => by simp only [descend]; exact Le.rfl
end

theorem analyzeRelType_le (h : Sub rs rs') (env : Env) (c : Cache) (t : Ty) :
    Le (analyzeRelType env rs c t) (analyzeRelType env rs' c t) := by
  unfold analyzeRelType
  split
  · exact Le.rfl
  · refine Le.bind Le.rfl fun s => Le.bind Le.rfl fun rt => Le.map ?_
    unfold relFields
    split
    · exact Le.map (fieldsOf_le h _ _ _ _ _)
    · exact Le.rfl

theorem conflictDirective_le (h : Sub rs rs') (oc : OnConflict) (d : Bytes) (hd : FieldHdr) :
    Le (conflictDirective rs oc d hd) (conflictDirective rs' oc d hd) := by
  unfold conflictDirective
  exact Le.ite (Le.bind Le.rfl fun _ => Le.map (parseColIdents_le h _)) (Le.ite Le.rfl (Le.ite Le.rfl (Le.ite Le.rfl
    (Le.ite (Le.bind Le.rfl fun _ => Le.map (parseColIdentList_le h _)) Le.rfl))))

theorem conflictFields_le (h : Sub rs rs') : ∀ (fs : List Field) (oc : OnConflict),
    Le (conflictFields rs oc fs) (conflictFields rs' oc fs)
  | [], _ => Le.rfl
  | (hd, t) :: rest, oc => by
    simp only [conflictFields]
    exact Le.ite (conflictFields_le h rest oc) (Le.bind Le.rfl fun _ =>
      Le.bind (conflictDirective_le h _ _ _) fun _ => conflictFields_le h rest _)

theorem orderItems_le (h : Sub rs rs') : ∀ vs : List Bytes, Le (orderItems rs vs) (orderItems rs' vs)
  | [] => Le.rfl
  | v :: vs => by
    simp only [orderItems]
    exact Le.ite (orderItems_le h vs) (Le.bind (Le.bind Le.rfl fun _ => Le.map (parseColIdent_le h _)) fun _ =>
      Le.map (orderItems_le h vs))

theorem joinFields_sub : ∀ (fs : List Field) (rs : RelSpace) (j : JoinStruct) (p : RelSpace × JoinStruct),
    joinFields rs j fs = .ok p → Sub rs p.1
  | [], rs, j, p, e => by
    simp only [joinFields, Res.ok.injEq] at e
    subst e
    exact Sub.rfl
  | (h, t) :: rest, rs, j, p, e => by
    simp only [joinFields] at e
    split at e
    · exact joinFields_sub rest rs j p e
    · simp only [Res.bind_eq_ok] at e
      obtain ⟨d, _, p1, h1, h2⟩ := e
      refine Sub.trans ?_ (joinFields_sub rest _ _ p h2)
      split at h1
      · unfold joinRelation at h1
        split at h1
        · simp at h1
        · split at h1
          · simp at h1
          · simp only [Res.bind_eq_ok, Res.map_eq_ok] at h1
            obtain ⟨_, _, r, hr, rfl⟩ := h1
            exact addToRelSpace_sub hr
      · split at h1
        · simp only [joinDirective, Res.bind_eq_ok, Res.map_eq_ok] at h1
          obtain ⟨_, _, r, hr, _, _, rfl⟩ := h1
          exact addToRelSpace_sub hr
        · simp at h1

/-! ### What one field adds -/

/-- What a field adds to the query. -/
inductive Addition where
  | skip
  | wher (w : WhereStruct) | filter (n : Bytes) | all
  | join (rs : RelSpace) (j : JoinStruct)
  | onConflict (o : OnConflict)
  | result (c : Cache) (p : Bytes × RelType) | rowsAffected (p : Bytes × Kind) | ret (l : ColIdentList)
  | limit (l : LimitField) | offset (l : LimitField)
  | errorHandler (p : Bytes × Bool) | context (n : Bytes)
  | orderBy (l : List OrderItem) | override (o : Overriding)
  | default (l : ColIdentList) | force (l : ColIdentList) | optional (l : ColIdentList)

def Addition.put : Addition → St → St
  | .skip, s => s
  | .wher w, s => { s with q := { s.q with wher := some w } }
  | .filter n, s => { s with q := { s.q with filter := some n } }
  | .all, s => { s with q := { s.q with all := true } }
  | .join rs j, s => { s with rs := rs, q := { s.q with join := some j } }
  | .onConflict o, s => { s with q := { s.q with onConflict := some o } }
  | .result c p, s => { s with cache := c, q := { s.q with result := some p } }
  | .rowsAffected p, s => { s with q := { s.q with rowsAffected := some p } }
  | .ret l, s => { s with q := { s.q with ret := some l } }
  | .limit l, s => { s with q := { s.q with limit := some l } }
  | .offset l, s => { s with q := { s.q with offset := some l } }
  | .errorHandler p, s => { s with q := { s.q with errorHandler := some p } }
  | .context n, s => { s with q := { s.q with context := some n } }
  | .orderBy l, s => { s with q := { s.q with orderBy := some l } }
  | .override o, s => { s with q := { s.q with override := some o } }
  | .default l, s => { s with q := { s.q with default := some l } }
  | .force l, s => { s with q := { s.q with force := some l } }
  | .optional l, s => { s with q := { s.q with optional := some l } }

/-- What must not be there yet. -/
def Addition.free : Addition → Query → Prop
  | .wher _, q | .filter _, q | .all, q => q.hasWhere = false
  | .result .., q | .rowsAffected _, q | .ret _, q => q.hasResult = false
  | .limit _, q => q.limit.isSome = false
  | .offset _, q => q.offset.isSome = false
  | .errorHandler _, q => q.errorHandler.isSome = false
  | .context _, q => q.context.isSome = false
  | _, _ => True

/-- The fields that may add it, where a second one is accepted. -/
def Addition.mine : Addition → Field → Prop
  | .join .., f => IsJoin f
  | .onConflict _, f => IsNamed b!"onconflict" f
  | .orderBy _, f => IsDir b!"orderby" f
  | .override _, f => IsDir b!"override" f
  | .default _, f => IsDir b!"default" f
  | .force _, f => IsDir b!"force" f
  | .optional _, f => IsDir b!"optional" f
  | _, _ => True

/-- What adding it depends on is the same in the second state. -/
def Addition.like : Addition → St → St → Prop
  | .join .., s, s2 => s.rs = s2.rs
  | .result .., s, s2 => Sub s.rs s2.rs ∧ s.cache = s2.cache
  | _, s, s2 => Sub s.rs s2.rs

def Addition.grows : Addition → St → Prop
  | .join rs _, s => Sub s.rs rs
  | _, _ => True

/-- The states belong to the same kind of query and to the same records. -/
def Base (s s2 : St) : Prop := s.q.typeName = s2.q.typeName ∧ s.q.kind = s2.q.kind ∧ s.q.rel = s2.q.rel

theorem Base.slice {s s2 : St} (h : Base s s2) : s.q.isSliceUpdate = s2.q.isSliceUpdate := by
  simp only [Query.isSliceUpdate, h.2.1, h.2.2]

/-- A step adds something, and adds the same in other states. -/
def Adds (step : St → R St) (f : Field) (s s' : St) : Prop :=
  ∃ v : Addition, s' = v.put s ∧ v.free s.q ∧ v.mine f ∧ v.grows s ∧
    ∀ s2, Base s s2 → v.like s s2 → v.free s2.q → step s2 = .ok (v.put s2)

theorem failIf_none {c : Bool} {e : ECode} {u : Unit} : failIf c e = .ok u ↔ c = false := by
  cases c <;> simp [failIf]

theorem rowChecks_iff {q : Query} {u : Unit} : rowChecks q = .ok u ↔
    (q.kind.isSelect || q.kind = .update || q.kind = .delete) = true ∧ q.isSliceUpdate = false ∧ q.hasWhere = false := by
  cases u
  simp only [rowChecks, Res.bind_eq_ok, failIf_none, Bool.not_eq_false', exists_const]

theorem resultChecks_iff {q : Query} {u : Unit} : resultChecks q = .ok u ↔
    q.kind.isWrite = true ∧ q.hasResult = false := by
  cases u
  simp only [resultChecks, Res.bind_eq_ok, failIf_none, Bool.not_eq_false', exists_const]

theorem where_adds {env : Env} {s s' : St} {f : Field} (e : analyzeWhere env s f.1 f.2 = .ok s') :
    Adds (fun s => analyzeWhere env s f.1 f.2) f s s' := by
  simp only [analyzeWhere, Res.bind_eq_ok, rowChecks_iff] at e
  obtain ⟨_, ⟨h1, h2, h3⟩, e⟩ := e
  cases hg : getStruct f.2 with
  | none => rw [hg] at e; simp at e
  | some p =>
    rw [hg] at e
    simp only [Res.map_eq_ok] at e
    obtain ⟨items, hi, rfl⟩ := e
    refine ⟨.wher _, rfl, h3, trivial, trivial, fun s2 hb hl hf => ?_⟩
    simp only [analyzeWhere, Res.bind_eq_ok, rowChecks_iff, hg, Res.map_eq_ok]
    exact ⟨(), ⟨hb.2.1 ▸ h1, hb.slice ▸ h2, hf⟩, items, whereItems_le hl _ _ _ _ _ hi, rfl⟩

theorem filter_adds {s s' : St} {f : Field} (e : analyzeFilterField s f.1 = .ok s') :
    Adds (fun s => analyzeFilterField s f.1) f s s' := by
  simp only [analyzeFilterField, Res.map_eq_ok, rowChecks_iff] at e
  obtain ⟨_, ⟨h1, h2, h3⟩, rfl⟩ := e
  refine ⟨.filter _, rfl, h3, trivial, trivial, fun s2 hb hl hf => ?_⟩
  simp only [analyzeFilterField, Res.map_eq_ok, rowChecks_iff]
  exact ⟨(), ⟨hb.2.1 ▸ h1, hb.slice ▸ h2, hf⟩, rfl⟩

theorem all_adds {s s' : St} {f : Field} (e : analyzeAll s = .ok s') : Adds analyzeAll f s s' := by
  simp only [analyzeAll, Res.map_eq_ok, Res.bind_eq_ok, failIf_none] at e
  obtain ⟨_, h1, _, h2, _, h3, rfl⟩ := e
  refine ⟨.all, rfl, h3, trivial, trivial, fun s2 hb hl hf => ?_⟩
  simp only [analyzeAll, Res.map_eq_ok, Res.bind_eq_ok, failIf_none]
  exact ⟨(), hb.2.1 ▸ h1, (), hb.slice ▸ h2, (), hf, rfl⟩

theorem join_adds {s s' : St} {f : Field} (hm : IsJoin f) (e : analyzeJoin s f.1 f.2 = .ok s') :
    Adds (fun s => analyzeJoin s f.1 f.2) f s s' := by
  simp only [analyzeJoin, Res.bind_eq_ok, failIf_none] at e
  obtain ⟨_, h1, e⟩ := e
  cases hg : getStruct f.2 with
  | none => rw [hg] at e; simp at e
  | some p =>
    rw [hg] at e
    simp only [Res.map_eq_ok] at e
    obtain ⟨p1, hi, rfl⟩ := e
    refine ⟨.join p1.1 p1.2, rfl, trivial, hm, joinFields_sub _ _ _ _ hi, fun s2 hb hl hf => ?_⟩
    simp only [analyzeJoin, Res.bind_eq_ok, failIf_none, hg, Res.map_eq_ok]
    exact ⟨(), hb.2.1 ▸ h1, p1, (show s.rs = s2.rs from hl) ▸ hi, rfl⟩

theorem conflict_adds {s s' : St} {f : Field} (hm : IsNamed b!"onconflict" f)
    (e : analyzeOnConflict s f.1 f.2 = .ok s') : Adds (fun s => analyzeOnConflict s f.1 f.2) f s s' := by
  simp only [analyzeOnConflict, Res.bind_eq_ok, failIf_none] at e
  obtain ⟨_, h1, e⟩ := e
  cases hg : getStruct f.2 with
  | none => rw [hg] at e; simp at e
  | some p =>
    rw [hg] at e
    simp only [Res.bind_eq_ok, Res.map_eq_ok, failIf_none] at e
    obtain ⟨oc, hi, _, h2, rfl⟩ := e
    refine ⟨.onConflict oc, rfl, trivial, hm, trivial, fun s2 hb hl hf => ?_⟩
    simp only [analyzeOnConflict, Res.bind_eq_ok, failIf_none, hg, Res.map_eq_ok]
    exact ⟨(), hb.2.1 ▸ h1, oc, conflictFields_le hl _ _ _ hi, (), h2, rfl⟩

theorem limit_adds {s s' : St} {f : Field} (e : analyzeLimit s f.1 f.2 = .ok s') :
    Adds (fun s => analyzeLimit s f.1 f.2) f s s' := by
  simp only [analyzeLimit, Res.bind_eq_ok, failIf_none, Res.map_eq_ok] at e
  obtain ⟨_, h1, _, h2, l, h3, rfl⟩ := e
  refine ⟨.limit l, rfl, h2, trivial, trivial, fun s2 hb hl hf => ?_⟩
  simp only [analyzeLimit, Res.bind_eq_ok, failIf_none, Res.map_eq_ok]
  exact ⟨(), hb.2.1 ▸ h1, (), hf, l, h3, rfl⟩

theorem offset_adds {s s' : St} {f : Field} (e : analyzeOffset s f.1 f.2 = .ok s') :
    Adds (fun s => analyzeOffset s f.1 f.2) f s s' := by
  simp only [analyzeOffset, Res.bind_eq_ok, failIf_none, Res.map_eq_ok] at e
  obtain ⟨_, h1, _, h2, l, h3, rfl⟩ := e
  refine ⟨.offset l, rfl, h2, trivial, trivial, fun s2 hb hl hf => ?_⟩
  simp only [analyzeOffset, Res.bind_eq_ok, failIf_none, Res.map_eq_ok]
  exact ⟨(), hb.2.1 ▸ h1, (), hf, l, h3, rfl⟩

theorem handler_adds {s s' : St} {f : Field} {b : Bool} (e : analyzeErrorHandler s f.1 b = .ok s') :
    Adds (fun s => analyzeErrorHandler s f.1 b) f s s' := by
  simp only [analyzeErrorHandler, failIf_none, Res.map_eq_ok] at e
  obtain ⟨_, h1, rfl⟩ := e
  refine ⟨.errorHandler _, rfl, h1, trivial, trivial, fun s2 hb hl hf => ?_⟩
  simp only [analyzeErrorHandler, failIf_none, Res.map_eq_ok]
  exact ⟨(), hf, rfl⟩

theorem context_adds {s s' : St} {f : Field} (e : analyzeContext s f.1 = .ok s') :
    Adds (fun s => analyzeContext s f.1) f s s' := by
  simp only [analyzeContext, failIf_none, Res.map_eq_ok] at e
  obtain ⟨_, h1, rfl⟩ := e
  refine ⟨.context _, rfl, h1, trivial, trivial, fun s2 hb hl hf => ?_⟩
  simp only [analyzeContext, failIf_none, Res.map_eq_ok]
  exact ⟨(), hf, rfl⟩

theorem result_adds {env : Env} {s s' : St} {f : Field} (e : analyzeResult env s f.1 f.2 = .ok s') :
    Adds (fun s => analyzeResult env s f.1 f.2) f s s' := by
  simp only [analyzeResult, Res.bind_eq_ok, resultChecks_iff, Res.map_eq_ok] at e
  obtain ⟨_, ⟨h1, h2⟩, p, h3, rfl⟩ := e
  refine ⟨.result p.2 (f.1.name, p.1), rfl, h2, trivial, trivial, fun s2 hb hl hf => ?_⟩
  simp only [analyzeResult, Res.bind_eq_ok, resultChecks_iff, Res.map_eq_ok]
  exact ⟨(), ⟨hb.2.1 ▸ h1, hf⟩, p, analyzeRelType_le hl.1 _ _ _ _ (hl.2 ▸ h3), rfl⟩

theorem rows_adds {s s' : St} {f : Field} (e : analyzeRowsAffected s f.1 f.2 = .ok s') :
    Adds (fun s => analyzeRowsAffected s f.1 f.2) f s s' := by
  simp only [analyzeRowsAffected, Res.bind_eq_ok, resultChecks_iff, Res.map_eq_ok, failIf_none] at e
  obtain ⟨_, ⟨h1, h2⟩, _, h3, rfl⟩ := e
  refine ⟨.rowsAffected _, rfl, h2, trivial, trivial, fun s2 hb hl hf => ?_⟩
  simp only [analyzeRowsAffected, Res.bind_eq_ok, resultChecks_iff, Res.map_eq_ok, failIf_none]
  exact ⟨(), ⟨hb.2.1 ▸ h1, hf⟩, (), h3, rfl⟩

theorem ret_adds {s s' : St} {f : Field} (e : analyzeReturn s f.1 = .ok s') :
    Adds (fun s => analyzeReturn s f.1) f s s' := by
  simp only [analyzeReturn, Res.bind_eq_ok, resultChecks_iff, Res.map_eq_ok, failIf_none] at e
  obtain ⟨_, h0, _, ⟨h1, h2⟩, l, h3, _, h4, rfl⟩ := e
  refine ⟨.ret l, rfl, h2, trivial, trivial, fun s2 hb hl hf => ?_⟩
  simp only [analyzeReturn, Res.bind_eq_ok, resultChecks_iff, Res.map_eq_ok, failIf_none]
  exact ⟨(), hb.2.2 ▸ h0, (), ⟨hb.2.1 ▸ h1, hf⟩, l, parseColIdentList_le hl _ _ h3, (), hb.2.2 ▸ h4, rfl⟩

theorem order_adds {s s' : St} {f : Field} (hm : IsDir b!"orderby" f) (e : analyzeOrderBy s f.1 = .ok s') :
    Adds (fun s => analyzeOrderBy s f.1) f s s' := by
  simp only [analyzeOrderBy, Res.bind_eq_ok, Res.map_eq_ok, failIf_none] at e
  obtain ⟨_, h0, _, h1, l, h3, rfl⟩ := e
  refine ⟨.orderBy l, rfl, trivial, hm, trivial, fun s2 hb hl hf => ?_⟩
  simp only [analyzeOrderBy, Res.bind_eq_ok, Res.map_eq_ok, failIf_none]
  exact ⟨(), hb.2.1 ▸ h0, (), h1, l, orderItems_le hl _ _ h3, rfl⟩

theorem override_adds {s s' : St} {f : Field} (hm : IsDir b!"override" f) (e : analyzeOverride s f.1 = .ok s') :
    Adds (fun s => analyzeOverride s f.1) f s s' := by
  simp only [analyzeOverride, Res.bind_eq_ok, failIf_none] at e
  obtain ⟨_, h0, e⟩ := e
  split at e
  · rename_i hc
    simp only [Res.ok.injEq] at e
    refine ⟨.override .system, e.symm, trivial, hm, trivial, fun s2 hb hl hf => ?_⟩
    simp only [analyzeOverride, Res.bind_eq_ok, failIf_none]
    exact ⟨(), hb.2.1 ▸ h0, by rw [if_pos hc]; rfl⟩
  · rename_i hc
    split at e
    · rename_i hd
      simp only [Res.ok.injEq] at e
      refine ⟨.override .user, e.symm, trivial, hm, trivial, fun s2 hb hl hf => ?_⟩
      simp only [analyzeOverride, Res.bind_eq_ok, failIf_none]
      exact ⟨(), hb.2.1 ▸ h0, by rw [if_neg hc, if_pos hd]; rfl⟩
    · simp at e

theorem default_adds {s s' : St} {f : Field} (hm : IsDir b!"default" f) (e : analyzeDefault s f.1 = .ok s') :
    Adds (fun s => analyzeDefault s f.1) f s s' := by
  simp only [analyzeDefault, Res.bind_eq_ok, Res.map_eq_ok, failIf_none] at e
  obtain ⟨_, h0, l, h3, rfl⟩ := e
  refine ⟨.default l, rfl, trivial, hm, trivial, fun s2 hb hl hf => ?_⟩
  simp only [analyzeDefault, Res.bind_eq_ok, Res.map_eq_ok, failIf_none]
  exact ⟨(), hb.2.1 ▸ h0, l, parseColIdentList_le hl _ _ h3, rfl⟩

theorem force_adds {s s' : St} {f : Field} (hm : IsDir b!"force" f) (e : analyzeForce s f.1 = .ok s') :
    Adds (fun s => analyzeForce s f.1) f s s' := by
  simp only [analyzeForce, Res.bind_eq_ok, Res.map_eq_ok, failIf_none] at e
  obtain ⟨_, h0, l, h3, _, h4, rfl⟩ := e
  refine ⟨.force l, rfl, trivial, hm, trivial, fun s2 hb hl hf => ?_⟩
  simp only [analyzeForce, Res.bind_eq_ok, Res.map_eq_ok, failIf_none]
  exact ⟨(), hb.2.1 ▸ h0, l, parseColIdentList_le hl _ _ h3, (), hb.2.2 ▸ h4, rfl⟩

theorem optional_adds {s s' : St} {f : Field} (hm : IsDir b!"optional" f) (e : analyzeOptional s f.1 = .ok s') :
    Adds (fun s => analyzeOptional s f.1) f s s' := by
  simp only [analyzeOptional, Res.bind_eq_ok, Res.map_eq_ok, failIf_none] at e
  obtain ⟨_, h0, l, h3, _, h4, rfl⟩ := e
  refine ⟨.optional l, rfl, trivial, hm, trivial, fun s2 hb hl hf => ?_⟩
  simp only [analyzeOptional, Res.bind_eq_ok, Res.map_eq_ok, failIf_none]
  exact ⟨(), hb.2.1 ▸ h0, l, parseColIdentList_le hl _ _ h3, (), hb.2.2 ▸ h4, rfl⟩

theorem isDir_of {f : Field} {d n : Bytes} (hr : f.1.tag.has b!"rel" = false) (hn : f.1.name = b!"_")
    (hd : getDirectiveName f.2 = .ok d) (hp : d.length > 0) (hl : lower d = n) : IsDir n f :=
  ⟨hr, hn, d, (C92_name d f.2 (by intro h; simp [h] at hp)).1 hd, hl⟩

theorem directive_adds {s s' : St} {f : Field} {d : Bytes} (hr : f.1.tag.has b!"rel" = false) (hn : f.1.name = b!"_")
    (hd : getDirectiveName f.2 = .ok d) (hp : d.length > 0) (e : analyzeDirective s f.1 f.2 d = .ok s') :
    Adds (fun s => analyzeDirective s f.1 f.2 d) f s s' := by
  have hm := fun n h => isDir_of (n := n) hr hn hd hp h
  unfold analyzeDirective at e ⊢
  cases hk : List.lookup (lower d) dirTable with
  | none => rw [hk] at e; simp at e
  | some k =>
    have hk' := lookup_dir _ _ hk
    rw [hk] at e
    cases k
    case all => exact all_adds e
    case default => exact default_adds (hm _ (by simpa [dirTable] using hk')) e
    case force => exact force_adds (hm _ (by simpa [dirTable] using hk')) e
    case optional => exact optional_adds (hm _ (by simpa [dirTable] using hk')) e
    case ret => exact ret_adds e
    case limit => exact limit_adds e
    case offset => exact offset_adds e
    case orderBy => exact order_adds (hm _ (by simpa [dirTable] using hk')) e
    case override => exact override_adds (hm _ (by simpa [dirTable] using hk')) e

theorem skip_adds {s s' : St} {f : Field} {step : St → R St} (e : .ok s = (.ok s' : R St))
    (h : ∀ s2, Base s s2 → step s2 = .ok s2) : Adds step f s s' := by
  simp only [Res.ok.injEq] at e
  exact ⟨.skip, e.symm, trivial, trivial, trivial, fun s2 hb _ _ => h s2 hb⟩

/-- The step may be replaced by one that is the same for the same kind of query. -/
theorem Adds.of {s s' : St} {f : Field} {step step' : St → R St} (h : Adds step' f s s')
    (he : ∀ s2, Base s s2 → step s2 = step' s2) : Adds step f s s' := by
  obtain ⟨v, h1, h2, h3, h4, h5⟩ := h
  exact ⟨v, h1, h2, h3, h4, fun s2 hb hl hf => by rw [he s2 hb, h5 s2 hb hl hf]⟩

theorem typed_adds {env : Env} {s s' : St} {f : Field} (e : analyzeTypedField env s f.1 f.2 = .ok s') :
    Adds (fun s => analyzeTypedField env s f.1 f.2) f s s' := by
  simp only [analyzeTypedField, Res.bind_eq_ok] at e
  obtain ⟨acc, ha, e⟩ := e
  have key : ∀ s2, Base s s2 → (isAccessible env.pkgPath f.1.name f.1.exported (some (target env s2.q.typeName))) = .ok acc :=
    fun s2 hb => hb.1 ▸ ha
  cases acc
  · refine skip_adds (by simpa using e) fun s2 hb => ?_
    simp only [analyzeTypedField, key s2 hb, Res.bind_ok]
    rfl
  · simp only [ite_true, Res.bind_eq_ok] at e
    obtain ⟨isF, hF, e⟩ := e
    have key2 : ∀ s2, Base s s2 → analyzeTypedField env s2 f.1 f.2 =
        (if isF then analyzeFilterField s2 f.1
        else if isErrorHandler f.2 then analyzeErrorHandler s2 f.1 false
        else if isErrorInfoHandler f.2 then analyzeErrorHandler s2 f.1 true
        else if isContext f.2 then analyzeContext s2 f.1
        else .ok s2) := fun s2 hb => by
      simp only [analyzeTypedField, key s2 hb, Res.bind_ok, ite_true, hF]
    refine Adds.of ?_ key2
    by_cases h1 : isF = true
    · simp only [h1, ite_true] at e ⊢; exact filter_adds e
    · simp only [h1] at e ⊢
      by_cases h2 : isErrorHandler f.2 = true
      · simp only [h2, ite_true] at e ⊢; exact handler_adds e
      · simp only [h2] at e ⊢
        by_cases h3 : isErrorInfoHandler f.2 = true
        · simp only [h3, ite_true] at e ⊢; exact handler_adds e
        · simp only [h3] at e ⊢
          by_cases h4 : isContext f.2 = true
          · simp only [h4, ite_true] at e ⊢; exact context_adds e
          · simp only [h4] at e ⊢
            exact skip_adds e fun s2 _ => rfl

theorem field_adds {env : Env} {s s' : St} {f : Field} (hr : f.1.tag.has b!"rel" = false)
    (e : analyzeField env s f.1 f.2 = .ok s') : Adds (fun s => analyzeField env s f.1 f.2) f s s' := by
  unfold analyzeField at e ⊢
  cases hk : List.lookup (tolower f.1.name) fldTable with
  | none => rw [hk] at e; exact typed_adds e
  | some k =>
    have hk' := lookup_fld _ _ hk
    rw [hk] at e
    cases k
    case wher => exact where_adds e
    case join =>
      refine join_adds ?_ e
      simp only [fldTable, List.mem_cons, Prod.mk.injEq, reduceCtorEq, and_false, and_true, false_or, or_false,
        List.not_mem_nil] at hk'
      rcases hk' with h | h | h
      · exact .inl ⟨hr, h⟩
      · exact .inr (.inl ⟨hr, h⟩)
      · exact .inr (.inr ⟨hr, h⟩)
    case onConflict => exact conflict_adds ⟨hr, by simpa [fldTable] using hk'⟩ e
    case result => exact result_adds e
    case limit => exact limit_adds e
    case offset => exact offset_adds e
    case rowsAffected => exact rows_adds e

/-- What one field does. -/
theorem step_adds {env : Env} {s s' : St} {f : Field} (e : queryStep env s f = .ok s') :
    Adds (fun s => queryStep env s f) f s s' := by
  unfold queryStep at e ⊢
  cases hr : f.1.tag.has b!"rel"
  · simp only [hr, Bool.false_eq_true, ite_false, Res.bind_eq_ok] at e
    obtain ⟨d, hd, e⟩ := e
    simp only [Bool.false_eq_true, ite_false, hd, Res.bind_ok]
    by_cases hc : f.1.name = b!"_" ∧ d.length > 0
    · simp only [hc, and_self, ite_true] at e ⊢
      have := directive_adds hr hc.1 hd hc.2 (s := s) (s' := s') (by simpa [hc] using e)
      simpa [hc] using this
    · simp only [hc, ite_false] at e ⊢
      exact field_adds hr e
  · simp only [hr, ite_true] at e ⊢
    exact skip_adds e fun s2 _ => rfl

/-! ### Exchanging two fields -/

theorem put_base (v : Addition) (s : St) : Base s (v.put s) := by cases v <;> exact ⟨rfl, rfl, rfl⟩

theorem put_rs (v : Addition) (s : St) (h : v.grows s) : Sub s.rs (v.put s).rs := by
  cases v <;> first | exact Sub.rfl | exact h

/-- Two things that are added do not depend on each other. -/
theorem exchange {f g : Field} {v w : Addition} {s : St} (hv : v.mine f) (hw : w.mine g) (hj : ¬ IsJoin f)
    (hr : ¬ Repeats f g) (fv : v.free s.q) (fw : w.free (v.put s).q) (gw : w.grows (v.put s)) :
    v.put (w.put s) = w.put (v.put s) ∧ w.free s.q ∧ v.free (w.put s).q ∧ w.like (v.put s) s ∧
      v.like s (w.put s) := by
  cases v
  case join => exact absurd hv hj
  all_goals cases w
  all_goals first
    | (exact ⟨rfl, fw, fv, Sub.rfl, Sub.rfl⟩)
    | (exact ⟨rfl, fw, fv, Sub.rfl, gw⟩)
    | (exact ⟨rfl, fw, fv, rfl, gw⟩)
    | (exact ⟨rfl, fw, fv, ⟨Sub.rfl, rfl⟩, Sub.rfl⟩)
    | (exact ⟨rfl, fw, fv, Sub.rfl, ⟨Sub.rfl, rfl⟩⟩)
    | (exact ⟨rfl, fw, fv, rfl, ⟨gw, rfl⟩⟩)
    | (simp [Addition.free, Addition.put, Query.hasWhere, Query.hasResult] at fw; done)
    | (have h1 : IsNamed b!"onconflict" f := hv; exact absurd (.inr ⟨h1, hw⟩) hr)
    | (have h1 : IsDir b!"orderby" f := hv; exact absurd (.inl ⟨b!"orderby", by decide, h1, hw⟩) hr)
    | (have h1 : IsDir b!"override" f := hv; exact absurd (.inl ⟨b!"override", by decide, h1, hw⟩) hr)
    | (have h1 : IsDir b!"default" f := hv; exact absurd (.inl ⟨b!"default", by decide, h1, hw⟩) hr)
    | (have h1 : IsDir b!"force" f := hv; exact absurd (.inl ⟨b!"force", by decide, h1, hw⟩) hr)
    | (have h1 : IsDir b!"optional" f := hv; exact absurd (.inl ⟨b!"optional", by decide, h1, hw⟩) hr)

theorem steps_swap {env : Env} {s s1 s2 : St} {f g : Field} (hj : ¬ IsJoin f) (hr : ¬ Repeats f g)
    (h1 : queryStep env s f = .ok s1) (h2 : queryStep env s1 g = .ok s2) :
    ∃ t, queryStep env s g = .ok t ∧ queryStep env t f = .ok s2 := by
  obtain ⟨v, rfl, fv, mv, gv, av⟩ := step_adds h1
  obtain ⟨w, rfl, fw, mw, gw, aw⟩ := step_adds h2
  obtain ⟨he, fw', fv', lw, lv⟩ := exchange mv mw hj hr fv fw gw
  have hb := put_base v s
  have h3 := aw s ⟨hb.1.symm, hb.2.1.symm, hb.2.2.symm⟩ lw fw'
  have h4 := av (w.put s) (put_base w s) lv fv'
  exact ⟨w.put s, h3, by rw [← he]; exact h4⟩

theorem fields_swap {env : Env} {f g : Field} (hj : ¬ IsJoin f) (hr : ¬ Repeats f g) (post : List Field) :
    ∀ (pre : List Field) (s s' : St), queryFields env s (pre ++ f :: g :: post) = .ok s' →
      queryFields env s (pre ++ g :: f :: post) = .ok s'
  | [], s, s', e => by
    simp only [List.nil_append, queryFields, Res.bind_eq_ok] at e ⊢
    obtain ⟨s1, h1, s2, h2, h3⟩ := e
    obtain ⟨t, h4, h5⟩ := steps_swap hj hr h1 h2
    exact ⟨t, h4, s2, h5, h3⟩
  | x :: pre, s, s', e => by
    simp only [List.cons_append, queryFields, Res.bind_eq_ok] at e ⊢
    obtain ⟨s1, h1, h2⟩ := e
    exact ⟨s1, h1, fields_swap hj hr post pre s1 s' h2⟩

/-- After the field with the records there is no second one. -/
theorem relField_some {env : Env} {s s' : St1} {h : FieldHdr} {t : Ty} (e : analyzeRelField env s h t = .ok s') :
    s.rel = none ∧ s'.rel.isSome = true := by
  unfold analyzeRelField at e
  simp only [Res.bind_eq_ok, failIf_none] at e
  obtain ⟨_, h0, rid, _, rs, _, e⟩ := e
  refine ⟨by simpa using h0, ?_⟩
  split at e
  · simp only [toKind, Res.map_eq_ok] at e; obtain ⟨_, _, rfl⟩ := e; rfl
  · split at e
    · simp only [toKind, Res.map_eq_ok] at e; obtain ⟨_, _, rfl⟩ := e; rfl
    · split at e
      · simp only [toKind, Res.map_eq_ok] at e; obtain ⟨_, _, rfl⟩ := e; rfl
      · rw [Res.bind_eq_ok] at e
        obtain ⟨d, _, e⟩ := e
        split at e
        · simp only [Res.map_eq_ok] at e; obtain ⟨_, _, rfl⟩ := e; rfl
        · simp only [Res.bind_eq_ok, Res.map_eq_ok] at e; obtain ⟨_, _, _, _, rfl⟩ := e; rfl

theorem rels_swap {env : Env} {f g : Field} (post : List Field) : ∀ (pre : List Field) (s s' : St1),
    relFieldsLoop env s (pre ++ f :: g :: post) = .ok s' → relFieldsLoop env s (pre ++ g :: f :: post) = .ok s'
  | [], s, s', e => by
    simp only [List.nil_append, relFieldsLoop] at e ⊢
    cases hf : f.1.tag.has b!"rel" <;> cases hg : g.1.tag.has b!"rel" <;>
      simp only [hf, hg, ite_true, Bool.false_eq_true, ite_false] at e ⊢ <;> try exact e
    simp only [Res.bind_eq_ok] at e
    obtain ⟨s1, h1, s2, h2, _⟩ := e
    have a := (relField_some h1).2
    rw [(relField_some h2).1] at a
    cases a
  | x :: pre, s, s', e => by
    simp only [List.cons_append, relFieldsLoop] at e ⊢
    split
    · rename_i hx
      rw [if_pos hx] at e
      simp only [Res.bind_eq_ok] at e ⊢
      obtain ⟨s1, h1, h2⟩ := e
      exact ⟨s1, h1, rels_swap post pre s1 s' h2⟩
    · rename_i hx
      rw [if_neg hx] at e
      exact rels_swap post pre s s' e

theorem analyzeQuery_join {env : Env} {cache : Cache} {n : Bytes} {fs : List Field} {s : St} {k : QKind} {s1 : St1}
    {r : RelField} (hk : queryKind n = .ok k) (h1 : relFieldsLoop env { kind := k, cache := cache } fs = .ok s1)
    (hr : s1.rel = some r) (h2 : queryFields env
        { q := { typeName := n, kind := s1.kind, rel := r }, rs := s1.rs, cache := s1.cache } fs = .ok s) :
    analyzeQuery env cache n fs = .ok s := by
  simp only [analyzeQuery, Res.bind_eq_ok]
  refine ⟨k, hk, s1, h1, ?_⟩
  rw [hr]
  exact h2

/-- **C103** Two fields of an accepted query struct that follow each other may be exchanged, unless the first is a
join struct or both are the same directive or on-conflict structs: the query is accepted and is the same. -/
theorem C103_swap (env : Env) (cache : Cache) (n : Bytes) (pre post : List Field) (f g : Field) (s : St)
    (hj : ¬ IsJoin f) (hr : ¬ Repeats f g) (h : analyzeQuery env cache n (pre ++ f :: g :: post) = .ok s) :
    analyzeQuery env cache n (pre ++ g :: f :: post) = .ok s := by
  obtain ⟨k, r, s1, h1, hk, hs, h2⟩ := analyzeQuery_split h
  exact analyzeQuery_join hk (rels_swap post pre _ _ h1) hs (fields_swap hj hr post pre _ _ h2)

/-- **C103** Any number of such exchanges. -/
theorem C103_reorder (env : Env) (cache : Cache) (n : Bytes) (fs gs : List Field) (s : St) (hp : Reorder fs gs)
    (h : analyzeQuery env cache n fs = .ok s) : analyzeQuery env cache n gs = .ok s := by
  induction hp with
  | refl => exact h
  | swap pre post f g gs hj hr _ ih => exact ih (C103_swap env cache n pre post f g s hj hr h)

/-! ### Any order -/

theorem Reorder.trans {a b c : List Field} (h : Reorder a b) (h' : Reorder b c) : Reorder a c := by
  induction h with
  | refl => exact h'
  | swap pre post f g gs hj hr _ ih => exact .swap pre post f g c hj hr (ih h')

theorem Reorder.cons {a b : List Field} (x : Field) (h : Reorder a b) : Reorder (x :: a) (x :: b) := by
  induction h with
  | refl => exact .refl _
  | swap pre post f g gs hj hr _ ih => exact .swap (x :: pre) post f g _ hj hr ih

/-- Without join structs and repeated directives every order can be reached. -/
theorem reorder_perm {a b : List Field} (h : a.Perm b) :
    (∀ f ∈ a, ¬ IsJoin f) → a.Pairwise (fun f g => ¬ Repeats f g) → Reorder a b := by
  induction h with
  | nil => intro _ _; exact .refl _
  | cons x _ ih =>
    intro hj hp
    rw [List.pairwise_cons] at hp
    exact (ih (fun f hf => hj f (List.mem_cons_of_mem _ hf)) hp.2).cons x
  | swap x y l =>
    intro hj hp
    rw [List.pairwise_cons] at hp
    exact .swap [] l y x _ (hj y (by simp)) (hp.1 x (by simp)) (.refl _)
  | trans h1 _ ih1 ih2 =>
    intro hj hp
    exact (ih1 hj hp).trans (ih2 (fun f hf => hj f (h1.mem_iff.2 hf))
      ((h1.pairwise_iff (fun h h' => h (Repeats.symm h'))).1 hp))

/-- **C103** Without join structs and repeated directives the order of the fields is irrelevant. -/
theorem C103_order (env : Env) (cache : Cache) (n : Bytes) (fs gs : List Field) (s : St) (hp : fs.Perm gs)
    (hj : ∀ f ∈ fs, ¬ IsJoin f) (hr : fs.Pairwise (fun f g => ¬ Repeats f g)) :
    analyzeQuery env cache n fs = .ok s ↔ analyzeQuery env cache n gs = .ok s :=
  ⟨C103_reorder env cache n fs gs s (reorder_perm hp hj hr),
   C103_reorder env cache n gs fs s (reorder_perm hp.symm (fun f hf => hj f (hp.mem_iff.2 hf))
    ((hp.pairwise_iff (fun h h' => h (Repeats.symm h'))).1 hr))⟩

theorem reorder_front (j : Field) (b : List Field) : ∀ a : List Field, (∀ f ∈ a, ¬ IsJoin f ∧ ¬ Repeats f j) →
    Reorder (a ++ j :: b) (j :: (a ++ b))
  | [], _ => .refl _
  | x :: a, h => by
    have ih := (reorder_front j b a fun f hf => h f (List.mem_cons_of_mem _ hf)).cons x
    have hx := h x List.mem_cons_self
    exact ih.trans (.swap [] (a ++ b) x j _ hx.1 hx.2 (.refl _))

theorem join_alone {f j : Field} (h : IsJoin j) : ¬ Repeats f j := by
  rintro (⟨n, _, _, hj⟩ | ⟨_, hj⟩)
  · obtain ⟨_, hn, _⟩ := hj
    rcases h with h | h | h <;> · have := h.2; rw [hn] at this; revert this; decide
  · have e := hj.2
    rcases h with h | h | h <;> · have := h.2; rw [e] at this; revert this; decide

/-- **C103** The join struct may be put first, and the other fields in any order behind it. -/
theorem C103_join_first (env : Env) (cache : Cache) (n : Bytes) (a b gs : List Field) (j : Field) (s : St)
    (hj : IsJoin j) (ha : ∀ f ∈ a ++ b, ¬ IsJoin f) (hr : (a ++ b).Pairwise (fun f g => ¬ Repeats f g))
    (hp : (a ++ b).Perm gs) (h : analyzeQuery env cache n (a ++ j :: b) = .ok s) :
    analyzeQuery env cache n (j :: gs) = .ok s := by
  refine C103_reorder env cache n _ _ s ?_ h
  exact (reorder_front j b a fun f hf => ⟨ha f (List.mem_append_left _ hf), join_alone hj⟩).trans
    ((reorder_perm hp ha hr).cons j)

end Verif.Analysis
