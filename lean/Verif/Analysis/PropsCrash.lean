import Verif.Analysis.PropsDirective

/- C99, first part: the analysis does not crash. -/
namespace Verif.Analysis

/-! ### What the analysis takes for granted -/

/-- No option after the first value of the `sql` tag is empty: not `sql:"id,"`. -/
def tagOk (t : Tag) : Bool := !((t.get b!"sql").drop 1).contains []

mutual
/-- Every named type is declared in a package (the type `error` is not), and every tag is in order, at any
depth; the kinds of basic types are basic. -/
def tyOk : Ty → Bool
  | .basic k _ => k.isBasic
  | .chan => true
  | .named i u => i.pkg.isSome && tyOk u
  | .ptr e | .slice e | .array _ e => tyOk e
  | .map k e => tyOk k && tyOk e
  | .func _ p => tyOk p
  | .iface _ m => tyOk m
  | .struct fs => fieldsOk fs
def fieldsOk : Fields → Bool
  | .nil => true
  | .cons h t rest => tagOk h.tag && tyOk t && fieldsOk rest
end

/-- The fields of a target. -/
def targetOk (fs : List (FieldHdr × Ty)) : Bool := fs.all fun f => tagOk f.1.tag && tyOk f.2

theorem fieldsOk_list : ∀ {fs : Fields}, fieldsOk fs = true → targetOk fs.toList = true
  | .nil, _ => rfl
  | .cons h t rest, e => by
    rw [fieldsOk, Bool.and_eq_true, Bool.and_eq_true] at e
    have := fieldsOk_list e.2
    simp [Fields.toList, targetOk, e.1.1, e.1.2] at this ⊢
    exact this

/-! ### Steps -/

theorem bind_np {ε α β : Type} {r : Res ε α} {f : α → Res ε β} (h1 : r ≠ .panic)
    (h2 : ∀ a, r = .ok a → f a ≠ .panic) : r.bind f ≠ .panic := by
  cases r with
  | ok a => exact h2 a rfl
  | err e => simp [Res.bind]
  | panic => exact absurd rfl h1

theorem map_np {ε α β : Type} {r : Res ε α} {f : α → β} (h1 : r ≠ .panic) : r.map f ≠ .panic := by
  cases r with
  | ok a => simp [Res.map]
  | err e => simp [Res.map]
  | panic => exact absurd rfl h1

theorem failIf_np (c : Bool) (e : ECode) : failIf c e ≠ .panic := by unfold failIf; split <;> simp

theorem ite_np {ε α : Type} {c : Prop} [Decidable c] {a b : Res ε α} (h1 : c → a ≠ .panic) (h2 : ¬c → b ≠ .panic) :
    (if c then a else b) ≠ .panic := by
  split
  · exact h1 ‹_›
  · exact h2 ‹_›

theorem ok_np {ε α : Type} (a : α) : (Res.ok a : Res ε α) ≠ .panic := by simp
theorem err_np {ε α : Type} (e : ε) : (Res.err e : Res ε α) ≠ .panic := by simp

/-- Chains of steps. -/
macro "np" : tactic => `(tactic| repeat' (first
  | exact failIf_np _ _ | exact ok_np _ | exact err_np _ | assumption
  | apply bind_np | apply map_np | apply ite_np | (intro _)))

/-! ### Types, tags and names -/

theorem isImportedType_np (p : Bytes) {n : Option NamedInfo} (h : ∀ i, n = some i → i.pkg.isSome = true) :
    isImportedType p n ≠ .panic := by
  cases n with
  | none => simp [isImportedType]
  | some i =>
    have := h i rfl
    unfold isImportedType
    cases hp : i.pkg with
    | none => rw [hp] at this; cases this
    | some q => simp [hp]

theorem isAccessible_np (p nm : Bytes) (ex : Bool) {n : Option NamedInfo} (h : ∀ i, n = some i → i.pkg.isSome = true) :
    isAccessible p nm ex n ≠ .panic := by
  unfold isAccessible
  have := isImportedType_np p h
  np

theorem typeInfo_np (p : Bytes) : ∀ (t : Ty) (n : Option NamedInfo), tyOk t = true → typeInfo p n t ≠ .panic
  | .named i u, n, h => by
    rw [tyOk, Bool.and_eq_true] at h
    rw [typeInfo]
    cases hp : i.pkg with
    | none => rw [hp] at h; cases h.1
    | some q => exact typeInfo_np p u _ h.2
  | .basic k nm, n, _ => by rw [typeInfo]; simp
  | .slice e, n, h => by rw [tyOk] at h; rw [typeInfo]; exact map_np (typeInfo_np p e _ h)
  | .array _ e, n, h => by rw [tyOk] at h; rw [typeInfo]; exact map_np (typeInfo_np p e _ h)
  | .ptr e, n, h => by rw [tyOk] at h; rw [typeInfo]; exact map_np (typeInfo_np p e _ h)
  | .map k e, n, h => by
    rw [tyOk, Bool.and_eq_true] at h
    rw [typeInfo]
    exact bind_np (typeInfo_np p k _ h.1) fun _ _ => map_np (typeInfo_np p e _ h.2)
  | .iface _ _, n, _ => by cases n <;> simp [typeInfo]
  | .chan, n, _ => by rw [typeInfo]; simp
  | .func _ _, n, _ => by rw [typeInfo]; simp
  | .struct _, n, _ => by rw [typeInfo]; simp

theorem analyzeTypeInfo_np (p : Bytes) {t : Ty} (h : tyOk t = true) : analyzeTypeInfo p t ≠ .panic :=
  typeInfo_np p t none h

theorem notNoPackage {t : Ty} (h : tyOk t = true) : ¬NoPackage t := by
  rintro ⟨i, u, rfl, hp⟩
  rw [tyOk, hp] at h
  cases h

theorem getDirectiveName_np {t : Ty} (h : tyOk t = true) : getDirectiveName t ≠ .panic :=
  fun e => notNoPackage h ((C92_panic [] t).1.1 e)

theorem isDirective_np (n : Bytes) {t : Ty} (h : tyOk t = true) : isDirective n t ≠ .panic :=
  fun e => notNoPackage h ((C92_panic n t).2 e)

theorem isFilterType_np {t : Ty} (h : tyOk t = true) : isFilterType t ≠ .panic := by
  cases t with
  | named i u =>
    rw [tyOk, Bool.and_eq_true] at h
    unfold isFilterType
    cases hp : i.pkg with
    | none => rw [hp] at h; cases h.1
    | some q => simp only [hp]; split <;> simp
  | _ => simp [isFilterType]

theorem modeOptions_np : ∀ (l : List Bytes) (m : FieldMode), [] ∉ l → modeOptions m l ≠ .panic
  | [], m, _ => by simp [modeOptions]
  | o :: os, m, h => by
    rw [modeOptions]
    refine bind_np ?_ fun _ _ => modeOptions_np os _ (fun hm => h (by simp [hm]))
    unfold modeOption
    cases o with
    | nil => exact absurd (by simp) h
    | cons c cs => simp

theorem parseFieldMode_np {t : Tag} (h : tagOk t = true) : parseFieldMode t ≠ .panic := by
  unfold parseFieldMode
  unfold tagOk at h
  cases hs : t.get b!"sql" with
  | nil => simp
  | cons v l =>
    rw [hs] at h
    exact modeOptions_np l _ (by simpa using h)

theorem parseRelIdent_np (v : Bytes) : parseRelIdent v ≠ .panic := by unfold parseRelIdent; np

theorem addToRelSpace_np (rs : RelSpace) (id : RelIdent) : addToRelSpace rs id ≠ .panic := by
  unfold addToRelSpace
  split <;> split <;> simp

theorem parseColIdent_np (rs : RelSpace) (v : Bytes) : parseColIdent rs v ≠ .panic := by
  unfold parseColIdent
  split
  · split
    · split <;> simp
    · simp
  · simp

theorem parseColIdentsLoop_np (rs : RelSpace) : ∀ l, parseColIdentsLoop rs l ≠ .panic
  | [] => by simp [parseColIdentsLoop]
  | v :: vs => by
    rw [parseColIdentsLoop]
    exact bind_np (parseColIdent_np rs v) fun _ _ => map_np (parseColIdentsLoop_np rs vs)

theorem parseColIdents_np (rs : RelSpace) (l : List Bytes) : parseColIdents rs l ≠ .panic := by
  have := parseColIdentsLoop_np rs l
  unfold parseColIdents
  np

theorem parseColIdentList_np (rs : RelSpace) (l : List Bytes) : parseColIdentList rs l ≠ .panic := by
  have := parseColIdents_np rs l
  unfold parseColIdentList
  np

/-! ### Records -/

theorem kind_typeInfo (p : Bytes) : ∀ (t : Ty) (n : Option NamedInfo) (r : TypeInfo × Ty),
    typeInfo p n t = .ok r → r.1.kind = analyzeTypeKind t
  | .named i u, n, r, h => by
    rw [typeInfo] at h
    cases hp : i.pkg with
    | none => rw [hp] at h; cases h
    | some q =>
      rw [hp] at h
      rw [analyzeTypeKind]
      exact kind_typeInfo p u _ r h
  | .basic k nm, n, r, h => by
    rw [typeInfo] at h; cases h
    cases n <;> simp [TypeInfo.kind, TypeInfo.hdr, namedHdr, analyzeTypeKind]
  | .slice e, n, r, h => by
    rw [typeInfo, Res.map_eq_ok] at h
    obtain ⟨x, _, rfl⟩ := h
    cases n <;> simp [TypeInfo.kind, TypeInfo.hdr, namedHdr, analyzeTypeKind]
  | .array _ e, n, r, h => by
    rw [typeInfo, Res.map_eq_ok] at h
    obtain ⟨x, _, rfl⟩ := h
    cases n <;> simp [TypeInfo.kind, TypeInfo.hdr, namedHdr, analyzeTypeKind]
  | .ptr e, n, r, h => by
    rw [typeInfo, Res.map_eq_ok] at h
    obtain ⟨x, _, rfl⟩ := h
    cases n <;> simp [TypeInfo.kind, TypeInfo.hdr, namedHdr, analyzeTypeKind]
  | .map k e, n, r, h => by
    rw [typeInfo] at h
    simp only [Res.bind_eq_ok, Res.map_eq_ok] at h
    obtain ⟨x, _, y, _, rfl⟩ := h
    cases n <;> simp [TypeInfo.kind, TypeInfo.hdr, namedHdr, analyzeTypeKind]
  | .iface _ _, n, r, h => by
    cases n <;> simp only [typeInfo, Res.ok.injEq] at h <;> subst h <;>
      simp [TypeInfo.kind, TypeInfo.hdr, namedHdr, analyzeTypeKind]
  | .chan, n, r, h => by
    rw [typeInfo] at h; cases h
    cases n <;> simp [TypeInfo.kind, TypeInfo.hdr, namedHdr, analyzeTypeKind]
  | .func _ _, n, r, h => by
    rw [typeInfo] at h; cases h
    cases n <;> simp [TypeInfo.kind, TypeInfo.hdr, namedHdr, analyzeTypeKind]
  | .struct _, n, r, h => by
    rw [typeInfo] at h; cases h
    cases n <;> simp [TypeInfo.kind, TypeInfo.hdr, namedHdr, analyzeTypeKind]

/-- A struct, under names and pointers. -/
def reachesStruct : Ty → Bool
  | .struct _ => true
  | .named _ u => reachesStruct u
  | .ptr e => reachesStruct e
  | _ => false

theorem reaches_of_kind : ∀ {t : Ty}, tyOk t = true → analyzeTypeKind t = .struct → reachesStruct t = true
  | .struct _, _, _ => rfl
  | .named _ u, ok, h => by
    rw [tyOk, Bool.and_eq_true] at ok
    rw [analyzeTypeKind] at h; rw [reachesStruct]; exact reaches_of_kind ok.2 h
  | .basic k _, ok, h => by
    rw [analyzeTypeKind] at h
    rw [tyOk, h] at ok
    cases ok
  | .ptr _, _, h => by rw [analyzeTypeKind] at h; cases h
  | .slice _, _, h => by rw [analyzeTypeKind] at h; cases h
  | .array _ _, _, h => by rw [analyzeTypeKind] at h; cases h
  | .map _ _, _, h => by rw [analyzeTypeKind] at h; cases h
  | .chan, _, h => by rw [analyzeTypeKind] at h; cases h
  | .func _ _, _, h => by rw [analyzeTypeKind] at h; cases h
  | .iface _ _, _, h => by rw [analyzeTypeKind] at h; cases h

/-- The element of a pointer. -/
theorem elem_typeInfo (p : Bytes) : ∀ (t : Ty) (n : Option NamedInfo) (r : TypeInfo × Ty), tyOk t = true →
    typeInfo p n t = .ok r → r.1.kind = .ptr → (r.1.elem?.any fun e => e.kind = .struct) = true →
    reachesStruct t = true
  | .named i u, n, r, ok, h, hk, he => by
    rw [tyOk, Bool.and_eq_true] at ok
    rw [typeInfo] at h
    cases hp : i.pkg with
    | none => rw [hp] at h; cases h
    | some q =>
      rw [hp] at h
      rw [reachesStruct]
      exact elem_typeInfo p u _ r ok.2 h hk he
  | .ptr e, n, r, ok, h, hk, he => by
    rw [tyOk] at ok
    rw [typeInfo, Res.map_eq_ok] at h
    obtain ⟨x, hx, rfl⟩ := h
    rw [reachesStruct]
    refine reaches_of_kind ok ?_
    rw [← kind_typeInfo p e none x hx]
    simpa [TypeInfo.elem?] using he
  | .basic k nm, n, r, ok, h, hk, he => by
    have := kind_typeInfo p _ n r h
    rw [hk, analyzeTypeKind] at this
    rw [tyOk, ← this] at ok
    cases ok
  | .slice _, n, r, _, h, hk, _ | .array _ _, n, r, _, h, hk, _ | .map _ _, n, r, _, h, hk, _
  | .iface _ _, n, r, _, h, hk, _ | .chan, n, r, _, h, hk, _ | .func _ _, n, r, _, h, hk, _ => by
    have := kind_typeInfo p _ n r h
    rw [hk, analyzeTypeKind] at this
    cases this
  | .struct _, n, r, _, h, hk, _ => rfl

theorem reaches_of_descend {p : Bytes} {h : FieldHdr} {t : Ty} {r : TypeInfo × Ty} (ok : tyOk t = true)
    (e : analyzeTypeInfo p t = .ok r) (hd : isDescend h r.1 = true) : reachesStruct t = true := by
  unfold isDescend at hd
  rw [Bool.and_eq_true] at hd
  have h1 := hd.1
  unfold TypeInfo.is at h1
  rw [Bool.or_eq_true] at h1
  rcases h1 with h1 | h1
  · refine reaches_of_kind ok ?_
    rw [← kind_typeInfo p t none r e]
    simpa using h1
  · rw [Bool.and_eq_true] at h1
    exact elem_typeInfo p t none r ok e (by simpa using h1.1) (by simpa using h1.2)

theorem leafField_np (env : Env) (rs : RelSpace) (pfx : Bytes) (sel : List SelNode) {h : FieldHdr} (ti : TypeInfo)
    (ok : tagOk h.tag = true) : leafField env rs pfx sel h ti ≠ .panic := by
  unfold leafField
  exact bind_np (parseColIdent_np _ _) fun _ _ => map_np (parseFieldMode_np ok)

mutual
theorem fieldsOf_np (env : Env) (rs : RelSpace) : ∀ (fs : Fields) (pfx : Bytes) (sel : List SelNode) (imp : Bool),
    fieldsOk fs = true → fieldsOf env rs pfx sel imp fs ≠ .panic
  | .nil, pfx, sel, imp, _ => by rw [fieldsOf]; simp
  | .cons hd t rest, pfx, sel, imp, ok => by
    rw [fieldsOk, Bool.and_eq_true, Bool.and_eq_true] at ok
    obtain ⟨⟨ok1, ok2⟩, ok3⟩ := ok
    rw [fieldsOf]
    split
    · exact fieldsOf_np env rs rest _ _ _ ok3
    · refine bind_np (analyzeTypeInfo_np _ ok2) fun p hp => ?_
      split
      · rename_i hd'
        refine bind_np (parseFieldMode_np ok1) fun m _ => ?_
        refine bind_np (descend_np env rs t _ _ _ ok2 (reaches_of_descend ok2 hp hd')) fun fs _ => ?_
        exact map_np (fieldsOf_np env rs rest _ _ _ ok3)
      · exact bind_np (leafField_np _ _ _ _ _ ok1) fun _ _ => map_np (fieldsOf_np env rs rest _ _ _ ok3)
theorem descend_np (env : Env) (rs : RelSpace) : ∀ (t : Ty) (pfx : Bytes) (sel : List SelNode) (imp : Bool),
    tyOk t = true → reachesStruct t = true → descend env rs pfx sel imp t ≠ .panic
  | .struct fs, pfx, sel, imp, ok, _ => by
    rw [tyOk] at ok; rw [descend]; exact fieldsOf_np env rs fs _ _ _ ok
  | .named _ u, pfx, sel, imp, ok, hr => by
    rw [tyOk, Bool.and_eq_true] at ok; rw [reachesStruct] at hr; rw [descend]
    exact descend_np env rs u _ _ _ ok.2 hr
  | .ptr e, pfx, sel, imp, ok, hr => by
    rw [tyOk] at ok; rw [reachesStruct] at hr; rw [descend]
    exact descend_np env rs e _ _ _ ok hr
  | .basic _ _, _, _, _, _, hr => by cases hr
  | .slice _, _, _, _, _, hr => by cases hr
  | .array _ _, _, _, _, _, hr => by cases hr
  | .map _ _, _, _, _, _, hr => by cases hr
  | .chan, _, _, _, _, hr => by cases hr
  | .func _ _, _, _, _, _, hr => by cases hr
  | .iface _ _, _, _, _, _, hr => by cases hr
end

/-- What the record types are made of. -/
def ShapeOk (s : RelType × Option NamedInfo × Ty) : Prop :=
  (∀ i, s.2.1 = some i → i.pkg.isSome = true) ∧ tyOk s.2.2 = true

theorem namedStruct_ok {t : Ty} {p : Bool} {i : NamedInfo} {fs : Fields} (ok : tyOk t = true)
    (h : namedStruct t = some (p, i, fs)) : i.pkg.isSome = true ∧ fieldsOk fs = true := by
  unfold namedStruct at h
  split at h
  · cases h
    simpa [tyOk] using ok
  · cases h
    simpa [tyOk] using ok
  · cases h

theorem iterFunc_ok {t : Ty} {p : Bool} {i : NamedInfo} {fs : Fields} (ok : tyOk t = true)
    (h : iterFunc t = some (p, i, fs)) : i.pkg.isSome = true ∧ fieldsOk fs = true := by
  unfold iterFunc at h
  split at h
  · split at h
    · exact namedStruct_ok (by simpa [tyOk] using ok) h
    · cases h
  · cases h

theorem splitNamed_ok {t : Ty} (ok : tyOk t = true) :
    (∀ i, (splitNamed t).1 = some i → i.pkg.isSome = true) ∧ tyOk (splitNamed t).2 = true := by
  cases t with
  | named i u =>
    rw [tyOk, Bool.and_eq_true] at ok
    exact ⟨fun j e => by cases e; exact ok.1, ok.2⟩
  | _ => exact ⟨fun j e => (by cases e), ok⟩

theorem stripPtr_ok (rt : RelType) {t : Ty} (ok : tyOk t = true) : tyOk (stripPtr rt t).2 = true := by
  unfold stripPtr
  split
  · simpa [tyOk] using ok
  · exact ok

theorem stripSeq_ok {t : Ty} (ok : tyOk t = true) : tyOk (stripSeq t).2 = true := by
  unfold stripSeq
  split
  · exact stripPtr_ok _ (by simpa [tyOk] using ok)
  · exact stripPtr_ok _ (by simpa [tyOk] using ok)
  · exact stripPtr_ok _ ok

theorem relShape_np (env : Env) {t : Ty} (ok : tyOk t = true) :
    relShape env t ≠ .panic ∧ ∀ s, relShape env t = .ok s → ShapeOk s := by
  obtain ⟨h1, h2⟩ := splitNamed_ok ok
  unfold relShape
  split
  · rename_i n h m hs
    rw [hs] at h1 h2
    simp only at h1 h2
    have hi : iterIface env.pkgPath n h m ≠ .panic := by
      unfold iterIface
      have := isAccessible_np env.pkgPath h.name0 h.exported0 h1
      np
    refine ⟨bind_np hi fun o _ => by split <;> simp, ?_⟩
    intro s e
    rw [Res.bind_eq_ok] at e
    obtain ⟨o, ho, e⟩ := e
    split at e
    · cases e
    · rename_i p i fs
      cases e
      unfold iterIface at ho
      split at ho
      · cases ho
      · rw [Res.map_eq_ok] at ho
        obtain ⟨acc, _, ho⟩ := ho
        split at ho
        · have := iterFunc_ok (t := m) (by simpa [tyOk] using h2) ho
          exact ⟨fun j e => by cases e; exact this.1, by simpa [tyOk] using this.2⟩
        · cases ho
  · rename_i n h p hs
    rw [hs] at h1 h2
    refine ⟨by split <;> simp, ?_⟩
    intro s e
    split at e
    · cases e
    · rename_i q i fs hf
      cases e
      have := iterFunc_ok (t := .func h p) h2 hf
      exact ⟨fun j e => by cases e; exact this.1, by simpa [tyOk] using this.2⟩
  · rename_i n u _ _ hs
    rw [hs] at h1 h2
    simp only at h1 h2 ⊢
    have h3 := stripSeq_ok h2
    refine ⟨?_, ?_⟩
    · split
      · split <;> simp
      · simp
    · intro s e
      split at e
      · split at e
        · rename_i i v hv
          cases e
          rw [hv, tyOk, Bool.and_eq_true] at h3
          exact ⟨fun j e => by cases e; exact h3.1, h3.2⟩
        · cases e
      · cases e
        exact ⟨h1, h2⟩

theorem analyzeRelType_np (env : Env) (rs : RelSpace) (cache : Cache) {t : Ty} (ok : tyOk t = true) :
    analyzeRelType env rs cache t ≠ .panic := by
  unfold analyzeRelType
  split
  · simp
  · obtain ⟨h1, h2⟩ := relShape_np env ok
    refine bind_np h1 fun s hs => ?_
    obtain ⟨h3, h4⟩ := h2 s hs
    refine bind_np ?_ fun rt _ => map_np ?_
    · unfold relBase
      split
      · simp
      · rename_i i hi
        have := h3 i hi
        cases hp : i.pkg with
        | none => rw [hp] at this; cases this
        | some q => simp [hp]
    · unfold relFields
      split
      · rename_i fs hf
        rw [hf, tyOk] at h4
        exact map_np (fieldsOf_np _ _ _ _ _ _ h4)
      · simp

/-! ### Where -/

theorem parseRhs_np (rs : RelSpace) (b : Bytes) : parseRhs rs b ≠ .panic := by
  unfold parseRhs
  have := parseColIdent_np rs b
  split
  · simp
  · split <;> simp
  · contradiction

theorem colCond_np (rs : RelSpace) (l : ColIdent) (e : PExpr) : colCond rs l e ≠ .panic := by
  unfold colCond
  have := parseRhs_np rs e.rhs
  np

theorem whereDirective_np (rs : RelSpace) {t : Ty} (e : PExpr) (ok : tyOk t = true) :
    whereDirective rs t e ≠ .panic := by
  unfold whereDirective
  refine bind_np (isDirective_np _ ok) fun d _ => ite_np (fun _ => ?_) fun _ => ok_np _
  exact bind_np (parseColIdent_np _ _) fun l _ => map_np (colCond_np _ _ _)

/-- The names of struct types. -/
def NamedOk (n : Option NamedInfo) : Prop := ∀ i, n = some i → i.pkg.isSome = true

theorem getStruct_ok {t : Ty} {n : Option NamedInfo} {fs : Fields} (ok : tyOk t = true)
    (h : getStruct t = some (n, fs)) : NamedOk n ∧ fieldsOk fs = true := by
  unfold getStruct at h
  split at h
  · cases h
    exact ⟨(by intro i e; cases e), by simpa [tyOk] using ok⟩
  · cases h
    rw [tyOk, Bool.and_eq_true] at ok
    exact ⟨(by intro i e; cases e; exact ok.1), by simpa [tyOk] using ok.2⟩
  · cases h

theorem betweenField_np (env : Env) (rs : RelSpace) {n : Option NamedInfo} (h : FieldHdr) {t : Ty} (hn : NamedOk n)
    (ok : tyOk t = true) : betweenField env rs n h t ≠ .panic := by
  unfold betweenField
  refine bind_np (ite_np (fun _ => isDirective_np _ ok) fun _ => ok_np _) fun d _ => ite_np (fun _ => ?_) fun _ => ?_
  · exact map_np (parseColIdent_np _ _)
  · refine bind_np (isAccessible_np _ _ _ hn) fun a _ => ite_np (fun _ => ?_) fun _ => ok_np _
    exact map_np (analyzeTypeInfo_np _ ok)

theorem betweenBounds_np (env : Env) (rs : RelSpace) {t : Ty} (ok : tyOk t = true) :
    betweenBounds env rs t ≠ .panic := by
  unfold betweenBounds
  split
  · rename_i n h1 t1 h2 t2 hs
    obtain ⟨hn, hf⟩ := getStruct_ok ok hs
    simp only [fieldsOk, Bool.and_eq_true] at hf
    refine bind_np (betweenField_np _ _ _ hn hf.1.2) fun b1 _ =>
      bind_np (betweenField_np _ _ _ hn hf.2.1.2) fun b2 _ => ?_
    split <;> simp
  · simp

theorem whereLeaf_np (env : Env) (rs : RelSpace) (h : FieldHdr) {t : Ty} (ok : tyOk t = true) :
    whereLeaf env rs h t ≠ .panic := by
  unfold whereLeaf
  refine ite_np (fun _ => whereDirective_np _ _ ok) fun _ => ite_np (fun _ => ?_) fun _ => ?_
  · unfold whereBetween
    exact bind_np (failIf_np _ _) fun _ _ => bind_np (betweenBounds_np _ _ ok) fun _ _ =>
      map_np (parseColIdent_np _ _)
  · unfold whereField
    refine bind_np (parseColIdent_np _ _) fun _ _ => bind_np (analyzeTypeInfo_np _ ok) fun p _ => ?_
    np

theorem whereRelevant_np (env : Env) {n : Option NamedInfo} (h : FieldHdr) (hn : NamedOk n) :
    whereRelevant env n h ≠ .panic := by
  unfold whereRelevant
  exact ite_np (fun _ => ok_np _) fun _ => ite_np (fun _ => ok_np _) fun _ => isAccessible_np _ _ _ hn

theorem whereBool_np (items : List WItem) (h : FieldHdr) : whereBool items h ≠ .panic := by
  unfold whereBool
  np

mutual
theorem whereItems_np (env : Env) (rs : RelSpace) {n : Option NamedInfo} (hn : NamedOk n) : ∀ (fs : Fields)
    (items : List WItem), fieldsOk fs = true → whereItems env rs n items fs ≠ .panic
  | .nil, items, _ => by rw [whereItems]; simp
  | .cons h t rest, items, ok => by
    rw [fieldsOk, Bool.and_eq_true, Bool.and_eq_true] at ok
    rw [whereItems]
    refine bind_np (whereRelevant_np _ _ hn) fun r _ => ite_np (fun _ => ?_) fun _ =>
      whereItems_np env rs hn rest _ ok.2
    refine bind_np (whereBool_np _ _) fun bs _ => ite_np (fun _ => ?_) fun _ => ?_
    · exact bind_np (whereNested_np env rs hn t ok.1.2) fun _ _ => whereItems_np env rs hn rest _ ok.2
    · exact bind_np (whereLeaf_np _ _ _ ok.1.2) fun _ _ => whereItems_np env rs hn rest _ ok.2
theorem whereNested_np (env : Env) (rs : RelSpace) {n : Option NamedInfo} (hn : NamedOk n) : ∀ (t : Ty),
    tyOk t = true → whereNested env rs n t ≠ .panic
  | .struct fs, ok => by rw [tyOk] at ok; rw [whereNested]; exact whereItems_np env rs hn fs _ ok
  | .named _ (.struct fs), ok => by
    rw [tyOk, tyOk, Bool.and_eq_true] at ok
    rw [whereNested]
    exact whereItems_np env rs hn fs _ ok.2
  | .named _ (.basic _ _), _ | .named _ (.named _ _), _ | .named _ (.ptr _), _ | .named _ (.slice _), _
  | .named _ (.array _ _), _ | .named _ (.map _ _), _ | .named _ .chan, _ | .named _ (.func _ _), _
  | .named _ (.iface _ _), _ | .basic _ _, _ | .ptr _, _ | .slice _, _ | .array _ _, _ | .map _ _, _ | .chan, _
  | .func _ _, _ | .iface _ _, _ => by simp [whereNested]
end

theorem rowChecks_np (q : Query) : rowChecks q ≠ .panic := by unfold rowChecks; np

theorem analyzeWhere_np (env : Env) (s : St) (h : FieldHdr) {t : Ty} (ok : tyOk t = true) :
    analyzeWhere env s h t ≠ .panic := by
  unfold analyzeWhere
  refine bind_np (rowChecks_np _) fun _ _ => ?_
  split
  · simp
  · rename_i n fs hs
    obtain ⟨hn, hf⟩ := getStruct_ok ok hs
    exact map_np (whereItems_np _ _ hn _ _ hf)

/-! ### Join -/

theorem joinCond_np (rs : RelSpace) (rid : RelIdent) (v : Bytes) : joinCond rs rid v ≠ .panic := by
  unfold joinCond
  exact bind_np (parseColIdent_np _ _) fun c _ => bind_np (failIf_np _ _) fun _ _ => colCond_np _ _ _

theorem joinAlts_np (rs : RelSpace) (rid : RelIdent) : ∀ (vs : List Bytes) (items : List JItem) (isOr : Bool),
    joinAlts rs rid items isOr vs ≠ .panic
  | [], _, _ => by rw [joinAlts]; simp
  | v :: vs, _, _ => by
    rw [joinAlts]
    exact bind_np (joinCond_np _ _ _) fun _ _ => joinAlts_np rs rid vs _ _

theorem joinConds_np (rs : RelSpace) (rid : RelIdent) : ∀ (vs : List Bytes) (items : List JItem),
    joinConds rs rid items vs ≠ .panic
  | [], _ => by rw [joinConds]; simp
  | v :: vs, _ => by
    rw [joinConds]
    exact bind_np (joinAlts_np _ _ _ _ _) fun _ _ => joinConds_np rs rid vs _

theorem joinFields_np : ∀ (fs : List (FieldHdr × Ty)) (rs : RelSpace) (j : JoinStruct), targetOk fs = true →
    joinFields rs j fs ≠ .panic
  | [], _, _, _ => by rw [joinFields]; simp
  | (h, t) :: rest, rs, j, ok => by
    rw [targetOk, List.all_cons, Bool.and_eq_true, Bool.and_eq_true] at ok
    rw [joinFields]
    refine ite_np (fun _ => joinFields_np rest _ _ ok.2) fun _ => bind_np (getDirectiveName_np ok.1.2) fun d _ =>
      bind_np (ite_np (fun _ => ?_) fun _ => ite_np (fun _ => ?_) fun _ => err_np _) fun p _ =>
      joinFields_np rest _ _ ok.2
    · unfold joinRelation
      refine ite_np (fun _ => err_np _) fun _ => ite_np (fun _ => err_np _) fun _ =>
        bind_np (parseRelIdent_np _) fun _ _ => map_np (addToRelSpace_np _ _)
    · unfold joinDirective
      exact bind_np (parseRelIdent_np _) fun _ _ => bind_np (addToRelSpace_np _ _) fun _ _ =>
        map_np (joinConds_np _ _ _ _)

theorem analyzeJoin_np (s : St) (h : FieldHdr) {t : Ty} (ok : tyOk t = true) : analyzeJoin s h t ≠ .panic := by
  unfold analyzeJoin
  refine bind_np (failIf_np _ _) fun _ _ => ?_
  split
  · simp
  · rename_i n fs hs
    exact map_np (joinFields_np _ _ _ (fieldsOk_list (getStruct_ok ok hs).2))

/-! ### On conflict -/

theorem conflictDirective_np (rs : RelSpace) (oc : OnConflict) (d : Bytes) (h : FieldHdr) :
    conflictDirective rs oc d h ≠ .panic := by
  unfold conflictDirective
  have h1 := parseColIdents_np rs (h.tag.get b!"sql")
  have h2 := parseColIdentList_np rs (h.tag.get b!"sql")
  np

theorem conflictFields_np (rs : RelSpace) : ∀ (fs : List (FieldHdr × Ty)) (oc : OnConflict), targetOk fs = true →
    conflictFields rs oc fs ≠ .panic
  | [], _, _ => by rw [conflictFields]; simp
  | (h, t) :: rest, oc, ok => by
    rw [targetOk, List.all_cons, Bool.and_eq_true, Bool.and_eq_true] at ok
    rw [conflictFields]
    exact ite_np (fun _ => conflictFields_np rs rest _ ok.2) fun _ => bind_np (getDirectiveName_np ok.1.2) fun d _ =>
      bind_np (conflictDirective_np _ _ _ _) fun _ _ => conflictFields_np rs rest _ ok.2

theorem analyzeOnConflict_np (s : St) (h : FieldHdr) {t : Ty} (ok : tyOk t = true) :
    analyzeOnConflict s h t ≠ .panic := by
  unfold analyzeOnConflict
  refine bind_np (failIf_np _ _) fun _ _ => ?_
  split
  · simp
  · rename_i n fs hs
    exact bind_np (conflictFields_np _ _ _ (fieldsOk_list (getStruct_ok ok hs).2)) fun _ _ =>
      map_np (failIf_np _ _)

/-! ### The other fields and directives -/

theorem limitField_np (h : FieldHdr) (t : Ty) : limitField h t ≠ .panic := by
  unfold limitField
  have hu : parseTagUint (h.tag.first b!"sql") ≠ .panic := by unfold parseTagUint; split <;> simp
  np

theorem analyzeLimit_np (s : St) (h : FieldHdr) (t : Ty) : analyzeLimit s h t ≠ .panic := by
  unfold analyzeLimit
  exact bind_np (failIf_np _ _) fun _ _ => bind_np (failIf_np _ _) fun _ _ => map_np (limitField_np _ _)

theorem analyzeOffset_np (s : St) (h : FieldHdr) (t : Ty) : analyzeOffset s h t ≠ .panic := by
  unfold analyzeOffset
  exact bind_np (failIf_np _ _) fun _ _ => bind_np (failIf_np _ _) fun _ _ => map_np (limitField_np _ _)

theorem resultChecks_np (q : Query) : resultChecks q ≠ .panic := by unfold resultChecks; np

theorem orderItems_np (rs : RelSpace) : ∀ vs, orderItems rs vs ≠ .panic
  | [] => by rw [orderItems]; simp
  | v :: vs => by
    rw [orderItems]
    refine ite_np (fun _ => orderItems_np rs vs) fun _ => bind_np ?_ fun _ _ => map_np (orderItems_np rs vs)
    unfold orderItem
    refine bind_np ?_ fun _ _ => map_np (parseColIdent_np _ _)
    unfold cutNulls
    split
    · simp
    · np

theorem analyzeDirective_np (s : St) (h : FieldHdr) (t : Ty) (d : Bytes) : analyzeDirective s h t d ≠ .panic := by
  have h1 := parseColIdentList_np s.rs (h.tag.get b!"sql")
  unfold analyzeDirective
  split
  · unfold analyzeAll; np
  · unfold analyzeDefault; np
  · unfold analyzeForce checkColumns; np
  · unfold analyzeOptional checkColumns; np
  · unfold analyzeReturn checkColumns
    have := resultChecks_np s.q
    np
  · exact analyzeLimit_np _ _ _
  · exact analyzeOffset_np _ _ _
  · unfold analyzeOrderBy
    have := orderItems_np s.rs (h.tag.get b!"sql")
    np
  · unfold analyzeOverride; np
  · simp

theorem analyzeTypedField_np (env : Env) (s : St) (h : FieldHdr) {t : Ty} (ok : tyOk t = true) :
    analyzeTypedField env s h t ≠ .panic := by
  unfold analyzeTypedField
  refine bind_np (isAccessible_np _ _ _ (by intro i e; cases e; rfl)) fun _ _ => ite_np (fun _ => ?_) fun _ => ok_np _
  refine bind_np (isFilterType_np ok) fun _ _ => ite_np (fun _ => ?_) fun _ => ?_
  · unfold analyzeFilterField
    exact map_np (rowChecks_np _)
  · unfold analyzeErrorHandler analyzeContext
    np

theorem analyzeField_np (env : Env) (s : St) (h : FieldHdr) {t : Ty} (ok : tyOk t = true) :
    analyzeField env s h t ≠ .panic := by
  unfold analyzeField
  split
  · exact analyzeWhere_np _ _ _ ok
  · exact analyzeJoin_np _ _ ok
  · exact analyzeOnConflict_np _ _ ok
  · unfold analyzeResult
    exact bind_np (resultChecks_np _) fun _ _ => map_np (analyzeRelType_np _ _ _ ok)
  · exact analyzeLimit_np _ _ _
  · exact analyzeOffset_np _ _ _
  · unfold analyzeRowsAffected
    exact bind_np (resultChecks_np _) fun _ _ => map_np (failIf_np _ _)
  · exact analyzeTypedField_np _ _ _ ok

theorem queryFields_np (env : Env) : ∀ (fs : List (FieldHdr × Ty)) (s : St), targetOk fs = true →
    queryFields env s fs ≠ .panic
  | [], s, _ => by rw [queryFields]; simp
  | f :: fs, s, ok => by
    rw [targetOk, List.all_cons, Bool.and_eq_true, Bool.and_eq_true] at ok
    rw [queryFields]
    refine bind_np ?_ fun _ _ => queryFields_np env fs _ ok.2
    unfold queryStep
    exact ite_np (fun _ => ok_np _) fun _ => bind_np (getDirectiveName_np ok.1.2) fun d _ =>
      ite_np (fun _ => analyzeDirective_np _ _ _ _) fun _ => analyzeField_np _ _ _ ok.1.2

theorem analyzeRelField_np (env : Env) (s : St1) (h : FieldHdr) {t : Ty} (ok : tyOk t = true) :
    analyzeRelField env s h t ≠ .panic := by
  unfold analyzeRelField
  refine bind_np (failIf_np _ _) fun _ _ => bind_np (parseRelIdent_np _) fun rid _ =>
    bind_np (addToRelSpace_np _ _) fun rs _ => ?_
  unfold toKind
  refine ite_np (fun _ => map_np (failIf_np _ _)) fun _ => ite_np (fun _ => map_np (failIf_np _ _)) fun _ =>
    ite_np (fun _ => map_np (failIf_np _ _)) fun _ =>
    bind_np (ite_np (fun _ => isDirective_np _ ok) fun _ => ok_np _) fun d _ => ite_np (fun _ => ?_) fun _ => ?_
  · exact map_np (failIf_np _ _)
  · exact bind_np (analyzeRelType_np _ _ _ ok) fun _ _ => map_np (failIf_np _ _)

theorem relFieldsLoop_np (env : Env) : ∀ (fs : List (FieldHdr × Ty)) (s : St1), targetOk fs = true →
    relFieldsLoop env s fs ≠ .panic
  | [], s, _ => by rw [relFieldsLoop]; simp
  | f :: fs, s, ok => by
    rw [targetOk, List.all_cons, Bool.and_eq_true, Bool.and_eq_true] at ok
    rw [relFieldsLoop]
    exact ite_np (fun _ => bind_np (analyzeRelField_np _ _ _ ok.1.2) fun _ _ => relFieldsLoop_np env fs _ ok.2)
      fun _ => relFieldsLoop_np env fs _ ok.2

theorem filterFields_np (env : Env) : ∀ (fs : List (FieldHdr × Ty)) (s : FSt), targetOk fs = true →
    filterFields env s fs ≠ .panic
  | [], s, _ => by rw [filterFields]; simp
  | f :: fs, s, ok => by
    rw [targetOk, List.all_cons, Bool.and_eq_true, Bool.and_eq_true] at ok
    rw [filterFields]
    refine bind_np (ite_np (fun _ => ?_) fun _ => ?_) fun _ _ => filterFields_np env fs _ ok.2
    · unfold filterRel
      exact bind_np (failIf_np _ _) fun _ _ => bind_np (parseRelIdent_np _) fun _ _ =>
        bind_np (addToRelSpace_np _ _) fun _ _ => bind_np (analyzeRelType_np _ _ _ ok.1.2) fun _ _ =>
        map_np (failIf_np _ _)
    · unfold filterField
      refine bind_np (getDirectiveName_np ok.1.2) fun d _ => ite_np (fun _ => ite_np (fun _ => ?_) fun _ => err_np _)
        fun _ => ite_np (fun _ => map_np (failIf_np _ _)) fun _ => ok_np _
      exact map_np (parseColIdent_np _ _)

/-! ### Whole targets -/

/-- The name of a target starts, in any case, with one of the four words. -/
def nameOk (n : Bytes) : Bool := [b!"insert", b!"update", b!"select", b!"delete"].contains ((tolower n).take 6)

theorem queryKind_np {n : Bytes} (h : nameOk n = true) : queryKind n ≠ .panic := by
  unfold nameOk at h
  simp only [List.contains_cons, List.contains_nil, Bool.or_false, Bool.or_eq_true, beq_iff_eq] at h
  unfold queryKind
  rcases h with h | h | h | h <;> simp [h]

/-- C99: the analysis of a query struct ends without a crash. -/
theorem C99_query (env : Env) (cache : Cache) {n : Bytes} {fs : List (FieldHdr × Ty)} (hn : nameOk n = true)
    (ok : targetOk fs = true) : analyzeQuery env cache n fs ≠ .panic := by
  unfold analyzeQuery
  refine bind_np (queryKind_np hn) fun k _ => bind_np (relFieldsLoop_np _ _ _ ok) fun s _ => ?_
  split
  · simp
  · exact queryFields_np _ _ _ ok

/-- C99: so does that of a filter struct. -/
theorem C99_filter (env : Env) (cache : Cache) (n : Bytes) {fs : List (FieldHdr × Ty)} (ok : targetOk fs = true) :
    analyzeFilter env cache n fs ≠ .panic := by
  unfold analyzeFilter
  refine bind_np (filterFields_np _ _ _ ok) fun s _ => ?_
  split <;> simp

end Verif.Analysis
