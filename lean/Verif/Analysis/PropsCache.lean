import Verif.Analysis.PropsQuery2

/- C72: the cache of record types. -/
namespace Verif.Analysis

/-! ### What the analysis of a type depends on -/

mutual
/-- The paths of the packages of the named types in a type. -/
def Ty.paths : Ty → List Bytes
  | .named i u => (i.pkg.map (·.path)).toList ++ u.paths
  | .ptr e => e.paths
  | .slice e => e.paths
  | .array _ e => e.paths
  | .map k e => k.paths ++ e.paths
  | .func _ p => p.paths
  | .iface _ m => m.paths
  | .struct fs => fs.paths
  | .basic .. => []
  | .chan => []
def Fields.paths : Fields → List Bytes
  | .nil => []
  | .cons _ t rest => t.paths ++ rest.paths
end

mutual
/-- No column in a type has a qualifier. -/
def Ty.unqualified : Ty → Bool
  | .named _ u => u.unqualified
  | .ptr e => e.unqualified
  | .slice e => e.unqualified
  | .array _ e => e.unqualified
  | .map k e => k.unqualified && e.unqualified
  | .func _ p => p.unqualified
  | .iface _ m => m.unqualified
  | .struct fs => fs.unqualified
  | .basic .. => true
  | .chan => true
def Fields.unqualified : Fields → Bool
  | .nil => true
  | .cons h t rest => !(h.tag.first b!"sql").contains '.' && t.unqualified && rest.unqualified
end

/-- Seen from two packages with the same settings, the same types are imported. -/
structure SameView (e e' : Env) (ps : List Bytes) : Prop where
  tag : e.keyTag = e'.keyTag
  sep : e.keySep = e'.keySep
  base : e.keyBase = e'.keyBase
  imported : ∀ p ∈ ps, p = e.pkgPath ↔ p = e'.pkgPath

theorem SameView.mono {e e' : Env} {ps qs : List Bytes} (h : SameView e e' ps) (hs : ∀ p ∈ qs, p ∈ ps) :
    SameView e e' qs := ⟨h.tag, h.sep, h.base, fun p hp => h.imported p (hs p hp)⟩

theorem SameView.refl (e : Env) (ps : List Bytes) : SameView e e ps := ⟨rfl, rfl, rfl, fun _ _ => .rfl⟩

def namedPaths (n : Option NamedInfo) : List Bytes := (n.bind (·.pkg)).toList.map (·.path)

theorem namedHdr_view {e e' : Env} {n : Option NamedInfo} (h : SameView e e' (namedPaths n))
    (hp : ∀ i, n = some i → i.pkg ≠ none) (k : Kind) : namedHdr e.pkgPath k n = namedHdr e'.pkgPath k n := by
  cases n with
  | none => rfl
  | some i =>
    cases hi : i.pkg with
    | none => exact absurd hi (hp i rfl)
    | some p =>
      have := h.imported p.path (by simp [namedPaths, hi])
      simp [namedHdr, hi, this]

theorem typeInfo_view {e e' : Env} : ∀ (t : Ty) (n : Option NamedInfo),
    SameView e e' (namedPaths n ++ t.paths) → (∀ i, n = some i → i.pkg ≠ none) →
    typeInfo e.pkgPath n t = typeInfo e'.pkgPath n t
  | .named i u, n, h, hp => by
    simp only [typeInfo]
    cases hi : i.pkg with
    | none => rfl
    | some p =>
      exact typeInfo_view u (some i) (h.mono (by simp [namedPaths, Ty.paths, hi]; exact fun _ h => .inr (.inr h)))
        (by intro j hj; cases hj; simp [hi])
  | .basic k nm, n, h, hp => by
    simp only [typeInfo, namedHdr_view (h.mono (by simp; exact fun _ h => .inl h)) hp]
  | .slice u, n, h, hp => by
    simp only [typeInfo, namedHdr_view (h.mono (by simp; exact fun _ h => .inl h)) hp,
      typeInfo_view u none (h.mono (by simp [namedPaths, Ty.paths]; exact fun _ h => .inr h)) (by simp)]
  | .array _ u, n, h, hp => by
    simp only [typeInfo, namedHdr_view (h.mono (by simp; exact fun _ h => .inl h)) hp,
      typeInfo_view u none (h.mono (by simp [namedPaths, Ty.paths]; exact fun _ h => .inr h)) (by simp)]
  | .ptr u, n, h, hp => by
    simp only [typeInfo, namedHdr_view (h.mono (by simp; exact fun _ h => .inl h)) hp,
      typeInfo_view u none (h.mono (by simp [namedPaths, Ty.paths]; exact fun _ h => .inr h)) (by simp)]
  | .map k u, n, h, hp => by
    simp only [typeInfo, namedHdr_view (h.mono (by simp; exact fun _ h => .inl h)) hp,
      typeInfo_view u none (h.mono (by simp [namedPaths, Ty.paths]; exact fun _ h => .inr (.inr h))) (by simp),
      typeInfo_view k none (h.mono (by simp [namedPaths, Ty.paths]; exact fun _ h => .inr (.inl h))) (by simp)]
  | .iface _ _, n, h, hp => by
    have := fun k => namedHdr_view (h.mono (by simp; exact fun _ h => .inl h)) hp k
    cases n with
    | none => rfl
    | some i => simp only [typeInfo, this]
  | .chan, n, h, hp => by
    simp only [typeInfo, namedHdr_view (h.mono (by simp; exact fun _ h => .inl h)) hp]
  | .func _ _, n, h, hp => by
    simp only [typeInfo, namedHdr_view (h.mono (by simp; exact fun _ h => .inl h)) hp]
  | .struct _, n, h, hp => by
    simp only [typeInfo, namedHdr_view (h.mono (by simp; exact fun _ h => .inl h)) hp]

theorem analyzeTypeInfo_view {e e' : Env} {t : Ty} (h : SameView e e' t.paths) :
    analyzeTypeInfo e.pkgPath t = analyzeTypeInfo e'.pkgPath t :=
  typeInfo_view t none (h.mono (by simp [namedPaths])) (by simp)

theorem parseColIdent_unqualified {v : Bytes} (h : '.' ∉ v) (rs rs' : RelSpace) :
    parseColIdent rs v = parseColIdent rs' v := by
  simp only [parseColIdent, lastSplit_none h]

theorem filterColumnKey_view {e e' : Env} {ps : List Bytes} (h : SameView e e' ps) (n : Bytes) (tag : Tag)
    (sel : List SelNode) : filterColumnKey e n tag sel = filterColumnKey e' n tag sel := by
  simp only [filterColumnKey, h.tag, h.sep, h.base]

mutual
theorem fieldsOf_view {e e' : Env} (rs rs' : RelSpace) (pfx : Bytes) (sel : List SelNode) (imp : Bool)
    (hpfx : '.' ∉ pfx) : ∀ fs : Fields, SameView e e' fs.paths → fs.unqualified = true →
    fieldsOf e rs pfx sel imp fs = fieldsOf e' rs' pfx sel imp fs
  | .nil, _, _ => rfl
  | .cons h t rest, hv, hu => by
    simp only [Fields.unqualified, Bool.and_eq_true, Bool.not_eq_true', List.contains_eq_mem,
      decide_eq_false_iff_not] at hu
    have hr := fieldsOf_view rs rs' pfx sel imp hpfx rest (hv.mono (by simp [Fields.paths]; exact fun _ h => .inr h)) hu.2
    have hvt : SameView e e' t.paths := hv.mono (by simp [Fields.paths]; exact fun _ h => .inl h)
    simp only [fieldsOf, hr, analyzeTypeInfo_view hvt]
    split
    · rfl
    · congr 1
      funext p
      split
      · congr 1
        funext mode
        rw [descend_view rs rs' _ _ _ (by
          simp only [List.mem_append, not_or]
          exact ⟨hpfx, fun hm => hu.1.1 (List.mem_of_mem_drop hm)⟩) t hvt hu.1.2]
      · simp only [leafField, filterColumnKey_view hv]
        rw [parseColIdent_unqualified (v := pfx ++ _) (by
          simp only [List.mem_append, not_or]; exact ⟨hpfx, hu.1.1⟩) rs rs']
theorem descend_view {e e' : Env} (rs rs' : RelSpace) (pfx : Bytes) (sel : List SelNode) (imp : Bool)
    (hpfx : '.' ∉ pfx) : ∀ t : Ty, SameView e e' t.paths → t.unqualified = true →
    descend e rs pfx sel imp t = descend e' rs' pfx sel imp t
  | .struct fs, hv, hu => by
    simp only [descend]
    exact fieldsOf_view rs rs' pfx sel imp hpfx fs (hv.mono (by simp [Ty.paths])) (by simpa [Ty.unqualified] using hu)
  | .named i u, hv, hu => by
    simp only [descend]
    exact descend_view rs rs' pfx sel imp hpfx u (hv.mono (by simp [Ty.paths]; exact fun _ h => .inr h))
      (by simpa [Ty.unqualified] using hu)
  | .ptr u, hv, hu => by
    simp only [descend]
    exact descend_view rs rs' pfx sel imp hpfx u (hv.mono (by simp [Ty.paths])) (by simpa [Ty.unqualified] using hu)
  | .basic .., _, _ => rfl
  | .slice _, _, _ => rfl
  | .array .., _, _ => rfl
  | .map .., _, _ => rfl
  | .chan, _, _ => rfl
  | .func .., _, _ => rfl
  | .iface .., _, _ => rfl
end

/-- A record type analysed by itself. -/
def fresh (env : Env) (rs : RelSpace) (t : Ty) : R RelType :=
  (relShape env t).bind fun s => (relBase env s.1 s.2.1).bind fun rt => relFields env rs rt s.2.2

theorem namedStruct_parts {t : Ty} {b : Bool} {i : NamedInfo} {fs : Fields} (h : namedStruct t = some (b, i, fs)) :
    (∀ p ∈ namedPaths (some i) ++ (Ty.struct fs).paths, p ∈ t.paths) ∧
    (t.unqualified = true → (Ty.struct fs).unqualified = true) := by
  unfold namedStruct at h
  split at h
  · cases h
    refine ⟨?_, fun hu => by simpa [Ty.unqualified] using hu⟩
    intro p hp
    simpa [Ty.paths, namedPaths] using hp
  · cases h
    refine ⟨?_, fun hu => by simpa [Ty.unqualified] using hu⟩
    intro p hp
    simpa [Ty.paths, namedPaths] using hp
  · cases h

theorem iterFunc_parts {t : Ty} {b : Bool} {i : NamedInfo} {fs : Fields} (h : iterFunc t = some (b, i, fs)) :
    (∀ p ∈ namedPaths (some i) ++ (Ty.struct fs).paths, p ∈ t.paths) ∧
    (t.unqualified = true → (Ty.struct fs).unqualified = true) := by
  unfold iterFunc at h
  split at h
  · split at h
    · have := namedStruct_parts h
      exact ⟨fun p hp => by simpa [Ty.paths] using this.1 p hp, fun hu => this.2 (by simpa [Ty.unqualified] using hu)⟩
    · cases h
  · cases h

theorem isAccessible_view {e e' : Env} {n : Option NamedInfo} (h : SameView e e' (namedPaths n)) (m : Bytes)
    (x : Bool) : isAccessible e.pkgPath m x n = isAccessible e'.pkgPath m x n := by
  unfold isAccessible isImportedType
  cases n with
  | none => rfl
  | some i =>
    cases hi : i.pkg with
    | none => simp [hi]
    | some p =>
      have := h.imported p.path (by simp [namedPaths, hi])
      simp [hi, this]

theorem splitNamed_parts (t : Ty) : (∀ p ∈ namedPaths (splitNamed t).1 ++ (splitNamed t).2.paths, p ∈ t.paths) ∧
    (splitNamed t).2.unqualified = t.unqualified := by
  cases t with
  | named i u =>
    refine ⟨?_, by simp [splitNamed, Ty.unqualified]⟩
    intro p hp
    simpa [splitNamed, Ty.paths, namedPaths] using hp
  | _ => exact ⟨by simp [splitNamed, namedPaths], rfl⟩

theorem stripSeq_parts (t : Ty) : (∀ p ∈ (stripSeq t).2.paths, p ∈ t.paths) ∧
    (stripSeq t).2.unqualified = t.unqualified := by
  have hp : ∀ (rt : RelType) (t : Ty), (∀ p ∈ (stripPtr rt t).2.paths, p ∈ t.paths) ∧
      (stripPtr rt t).2.unqualified = t.unqualified := by
    intro rt t
    cases t with
    | ptr e => exact ⟨by simp [stripPtr, Ty.paths], by simp [stripPtr, Ty.unqualified]⟩
    | _ => exact ⟨by simp [stripPtr], rfl⟩
  cases t with
  | slice e =>
    exact ⟨fun p h => by simpa [Ty.paths] using (hp _ e).1 p h, by simpa [Ty.unqualified, stripSeq] using (hp _ e).2⟩
  | array k e =>
    exact ⟨fun p h => by simpa [Ty.paths] using (hp _ e).1 p h, by simpa [Ty.unqualified, stripSeq] using (hp _ e).2⟩
  | _ => exact hp _ _

/-- The name and the underlying type that a record type is reduced to. -/
theorem relShape_parts {env : Env} {t : Ty} {s : RelType × Option NamedInfo × Ty} (h : relShape env t = .ok s) :
    (∀ p ∈ namedPaths s.2.1 ++ s.2.2.paths, p ∈ t.paths) ∧ (t.unqualified = true → s.2.2.unqualified = true) := by
  unfold relShape at h
  have hs := splitNamed_parts t
  split at h
  · rename_i n hh m he
    rw [he] at hs
    rw [Res.bind_eq_ok] at h
    obtain ⟨o, ho, h⟩ := h
    cases o with
    | none => cases h
    | some o =>
      cases h
      unfold iterIface at ho
      split at ho
      · cases ho
      · rw [Res.map_eq_ok] at ho
        obtain ⟨acc, _, ho⟩ := ho
        split at ho
        · have := iterFunc_parts ho
          refine ⟨fun p hp => hs.1 p ?_, fun hu => this.2 ?_⟩
          · have := this.1 p hp
            simp [Ty.paths, this]
          · rw [← hs.2] at hu
            simpa [Ty.unqualified] using hu
        · cases ho
  · rename_i n hh q he
    rw [he] at hs
    split at h
    · cases h
    · rename_i b i fs hi
      cases h
      have := iterFunc_parts hi
      exact ⟨fun p hp => hs.1 p (List.mem_append_right _ (this.1 p hp)), fun hu => this.2 (by rw [← hs.2] at hu; exact hu)⟩
  · rename_i n u _ _ he
    rw [he] at hs
    have hq := stripSeq_parts u
    simp only at h
    split at h
    · split at h
      · rename_i i v hv
        cases h
        rw [hv] at hq
        refine ⟨fun p hp => hs.1 p (List.mem_append_right _ (hq.1 p ?_)), fun hu => ?_⟩
        · simpa [Ty.paths, namedPaths] using hp
        · rw [← hs.2, ← hq.2] at hu
          simpa [Ty.unqualified] using hu
      · cases h
    · cases h
      exact ⟨hs.1, fun hu => by rw [← hs.2] at hu; exact hu⟩

theorem relShape_view {e e' : Env} {t : Ty} (h : SameView e e' t.paths) : relShape e t = relShape e' t := by
  have hs := splitNamed_parts t
  unfold relShape
  split
  · rename_i n hh m he
    rw [he] at hs
    have : iterIface e.pkgPath n hh m = iterIface e'.pkgPath n hh m := by
      unfold iterIface
      rw [isAccessible_view (h.mono fun p hp => hs.1 p (List.mem_append_left _ hp))]
    rw [this]
  · rfl
  · rfl

theorem relBase_view {e e' : Env} {n : Option NamedInfo} (h : SameView e e' (namedPaths n)) (rt : RelType) :
    relBase e rt n = relBase e' rt n := by
  cases n with
  | none => rfl
  | some i =>
    cases hi : i.pkg with
    | none => simp [relBase, hi]
    | some p =>
      have := h.imported p.path (by simp [namedPaths, hi])
      simp [relBase, hi, this]

/-- The analysis of a record type depends on the package only by what is imported, and on the declared
relations only by the qualifiers of its columns. -/
theorem fresh_view {e e' : Env} {t : Ty} (h : SameView e e' t.paths) (hu : t.unqualified = true)
    (rs rs' : RelSpace) : fresh e rs t = fresh e' rs' t := by
  unfold fresh
  rw [relShape_view h]
  cases hr : relShape e' t with
  | ok s =>
    obtain ⟨h1, h2⟩ := relShape_parts hr
    simp only [Res.bind_ok]
    rw [relBase_view (h.mono fun p hp => h1 p (List.mem_append_left _ hp))]
    congr 1
    funext rt
    unfold relFields
    split
    · rename_i fs hf
      rw [fieldsOf_view rs rs' [] [] _ (by simp) fs
        (h.mono fun p hp => h1 p (List.mem_append_right _ (by rw [hf]; simpa [Ty.paths] using hp)))
        (by have := h2 hu; rw [hf] at this; simpa [Ty.unqualified] using this)]
    · rfl
  | err _ => rfl
  | panic => rfl

theorem analyzeRelType_fresh {env : Env} {rs : RelSpace} {c : Cache} {t : Ty}
    (h : (cacheKey t).bind (List.lookup · c) = none) :
    ∃ n, analyzeRelType env rs c t = (fresh env rs t).map fun rt => (rt, store (cacheKey t) n rt c) := by
  unfold analyzeRelType fresh
  rw [h]
  cases hr : relShape env t with
  | ok s =>
    refine ⟨s.2.1, ?_⟩
    simp only [Res.bind_ok]
    cases relBase env s.1 s.2.1 <;> rfl
  | err _ => exact ⟨none, rfl⟩
  | panic => exact ⟨none, rfl⟩

/-! ### Targets -/

/-- A target struct and the package it is in. -/
inductive Job where
  | query (env : Env) (name : Bytes) (fs : List Field)
  | filter (env : Env) (name : Bytes) (fs : List Field)

def Job.env : Job → Env
  | .query e _ _ | .filter e _ _ => e
def Job.fields : Job → List Field
  | .query _ _ fs | .filter _ _ fs => fs

/-- What the analysis yields. -/
inductive Analysed where
  | query (q : Query) (rs : RelSpace)
  | filter (f : FilterStruct)

/-- analysis.go:88-121 Run, on the cache as it is. -/
def runJob (c : Cache) : Job → R (Analysed × Cache)
  | .query e n fs => (analyzeQuery e c n fs).map fun s => (.query s.q s.rs, s.cache)
  | .filter e n fs => (analyzeFilter e c n fs).map fun p => (.filter p.1, p.2)

/-- The targets one after the other: /repo/internal/command/command.go. -/
def runJobs (c : Cache) : List Job → R (List Analysed)
  | [] => .ok []
  | j :: js => (runJob c j).bind fun p => (runJobs p.2 js).map (p.1 :: ·)

/-- Each target by itself. -/
def eachAlone : List Job → R (List Analysed)
  | [] => .ok []
  | j :: js => (runJob [] j).bind fun p => (eachAlone js).map (p.1 :: ·)

/-- A record type of the targets. -/
def RecordType (js : List Job) (t : Ty) : Prop :=
  ∃ j ∈ js, ∃ h, (h, t) ∈ j.fields ∧ (h.tag.has b!"rel" = true ∨ tolower h.name = b!"result")

/-- Types of the same text are the same; they look the same from all packages with targets; their columns have
no qualifiers. -/
structure Uniform (js : List Job) : Prop where
  text : ∀ t t', RecordType js t → RecordType js t' → cacheKey t ≠ none → cacheKey t = cacheKey t' → t = t'
  view : ∀ j ∈ js, ∀ j' ∈ js, ∀ t, RecordType js t → SameView j.env j'.env t.paths
  plain : ∀ t, RecordType js t → t.unqualified = true

/-- A cache all of whose entries are right for all targets. -/
def Right (js : List Job) (c : Cache) : Prop :=
  ∀ k rt, List.lookup k c = some rt → ∀ t, RecordType js t → cacheKey t = some k →
    ∀ j ∈ js, ∀ rs, fresh j.env rs t = .ok rt

theorem right_nil (js : List Job) : Right js [] := by
  intro k rt h; cases h

/-- Two outcomes that are the same but for the caches. -/
def Agree {σ α : Type} (mk : α → Cache → σ) (V : Cache → Prop) (x y : R σ) : Prop :=
  ∃ (r : R α) (c c' : Cache), V c ∧ V c' ∧ x = r.map (mk · c) ∧ y = r.map (mk · c')

theorem Agree.ok {σ α : Type} {mk : α → Cache → σ} {V : Cache → Prop} {c c' : Cache} (hc : V c) (hc' : V c')
    (a : α) : Agree mk V (.ok (mk a c)) (.ok (mk a c')) := ⟨.ok a, c, c', hc, hc', rfl, rfl⟩

theorem Agree.bind {σ τ α β : Type} {mk : α → Cache → σ} {mk' : β → Cache → τ} {V : Cache → Prop} {x y : R σ}
    {f g : σ → R τ} (h : Agree mk V x y)
    (hf : ∀ a c c', V c → V c' → Agree mk' V (f (mk a c)) (g (mk a c'))) : Agree mk' V (x.bind f) (y.bind g) := by
  obtain ⟨r, c, c', hc, hc', rfl, rfl⟩ := h
  cases r with
  | ok a => exact hf a c c' hc hc'
  | err e => exact ⟨.err e, c, c', hc, hc', rfl, rfl⟩
  | panic => exact ⟨.panic, c, c', hc, hc', rfl, rfl⟩

/-- A common first step. -/
theorem Agree.same {τ β γ : Type} {mk' : β → Cache → τ} {V : Cache → Prop} {r : R γ} {f g : γ → R τ}
    {c c' : Cache} (hc : V c) (hc' : V c') (hf : ∀ a, r = .ok a → Agree mk' V (f a) (g a)) :
    Agree mk' V (r.bind f) (r.bind g) := by
  cases r with
  | ok a => exact hf a rfl
  | err e => exact ⟨.err e, c, c', hc, hc', rfl, rfl⟩
  | panic => exact ⟨.panic, c, c', hc, hc', rfl, rfl⟩

theorem Agree.of_map {σ α γ : Type} {mk : α → Cache → σ} {V : Cache → Prop} {r : R γ} {f g : γ → σ}
    {c c' : Cache} (hc : V c) (hc' : V c') (p : γ → α) (hf : ∀ a, f a = mk (p a) c) (hg : ∀ a, g a = mk (p a) c') :
    Agree mk V (r.map f) (r.map g) :=
  ⟨r.map p, c, c', hc, hc', by cases r <;> simp [hf], by cases r <;> simp [hg]⟩

/-- The cache does not change what is found out about a record type. -/
theorem agree_relType {js : List Job} (hu : Uniform js) {j : Job} (hj : j ∈ js) {t : Ty} (ht : RecordType js t)
    (rs : RelSpace) {c c' : Cache} (hc : Right js c) (hc' : Right js c') :
    Agree (fun (a : RelType) (d : Cache) => (a, d)) (Right js) (analyzeRelType j.env rs c t)
      (analyzeRelType j.env rs c' t) := by
  have key : ∀ c, Right js c → ∃ d, Right js d ∧
      analyzeRelType j.env rs c t = (fresh j.env rs t).map fun rt => (rt, d) := by
    intro c hc
    cases hl : (cacheKey t).bind (List.lookup · c) with
    | some rt =>
      refine ⟨c, hc, ?_⟩
      cases hk : cacheKey t with
      | none => rw [hk] at hl; cases hl
      | some k =>
        rw [hk] at hl
        rw [hc k rt hl t ht hk j hj rs]
        simp only [analyzeRelType, hk, hl, Res.map_ok]
    | none =>
      obtain ⟨n, hn⟩ := analyzeRelType_fresh (env := j.env) (rs := rs) hl
      cases hf : fresh j.env rs t with
      | ok rt =>
        refine ⟨store (cacheKey t) n rt c, ?_, by rw [hn, hf]; rfl⟩
        unfold store
        split
        · rename_i k _ hk
          intro k' rt' hl' t' ht' hk' j' hj' rs'
          rw [List.lookup_cons] at hl'
          by_cases he : k' = k
          · subst he
            simp only [BEq.rfl, Option.some.injEq] at hl'
            subst hl'
            have : t = t' := hu.text t t' ht ht' (by rw [hk]; simp) (by rw [hk, hk'])
            subst this
            rw [fresh_view (hu.view j' hj' j hj t ht) (hu.plain t ht) rs' rs, hf]
          · rw [show (k' == k) = false from by simpa using he] at hl'
            exact hc k' rt' hl' t' ht' hk' j' hj' rs'
        · exact hc
      | err e => exact ⟨c, hc, by rw [hn, hf]; rfl⟩
      | panic => exact ⟨c, hc, by rw [hn, hf]; rfl⟩
  obtain ⟨d, hd, e⟩ := key c hc
  obtain ⟨d', hd', e'⟩ := key c' hc'
  exact ⟨fresh j.env rs t, d, d', hd, hd', e, e'⟩

def mkSt (a : Query × RelSpace) (c : Cache) : St := { q := a.1, rs := a.2, cache := c }

theorem agree_ok {V : Cache → Prop} {s s' : St} (hc : V s.cache) (hc' : V s'.cache) (hq : s.q = s'.q)
    (hr : s.rs = s'.rs) : Agree mkSt V (.ok s) (.ok s') :=
  ⟨.ok (s.q, s.rs), s.cache, s'.cache, hc, hc', rfl, by rw [hq, hr]; rfl⟩

theorem agree_map {V : Cache → Prop} {γ : Type} {r : R γ} {f g : γ → St} {c c' : Cache} (hc : V c) (hc' : V c')
    (h1 : ∀ a, (f a).cache = c) (h2 : ∀ a, (g a).cache = c') (hq : ∀ a, (f a).q = (g a).q)
    (hr : ∀ a, (f a).rs = (g a).rs) : Agree mkSt V (r.map f) (r.map g) := by
  refine Agree.of_map hc hc' (fun a => ((f a).q, (f a).rs)) (fun a => ?_) (fun a => ?_)
  · rw [← h1 a]; rfl
  · rw [← h2 a, hq a, hr a]; rfl

theorem agree_err {V : Cache → Prop} {c c' : Cache} (hc : V c) (hc' : V c') (e : ECode) :
    Agree mkSt V (.err e) (.err e) := ⟨.err e, c, c', hc, hc', rfl, rfl⟩

macro "agree" hc:ident hc':ident : tactic => `(tactic| repeat' first
  | exact agree_map $hc $hc' (fun _ => rfl) (fun _ => rfl) (fun _ => rfl) (fun _ => rfl)
  | (refine Agree.same $hc $hc' (fun _ _ => ?_))
  | exact agree_ok $hc $hc' rfl rfl
  | exact agree_err $hc $hc' _
  | split)

theorem agree_directive {V : Cache → Prop} (a : Query × RelSpace) {c c' : Cache} (hc : V c) (hc' : V c')
    (h : FieldHdr) (t : Ty) (d : Bytes) :
    Agree mkSt V (analyzeDirective (mkSt a c) h t d) (analyzeDirective (mkSt a c') h t d) := by
  unfold analyzeDirective
  cases List.lookup (lower d) dirTable with
  | none => exact agree_err hc hc' _
  | some x =>
    cases x <;>
    simp only [analyzeAll, analyzeDefault, analyzeForce, analyzeOptional, analyzeReturn, analyzeLimit,
      analyzeOffset, analyzeOrderBy, analyzeOverride] <;>
    agree hc hc'

theorem mem_of_lookup_eq {α β : Type} [BEq α] [LawfulBEq α] {k : α} {v : β} :
    ∀ {l : List (α × β)}, List.lookup k l = some v → (k, v) ∈ l
  | [], h => by cases h
  | (k', v') :: l, h => by
    rw [List.lookup_cons] at h
    split at h
    · rename_i he
      cases h
      rw [eq_of_beq he]
      exact List.mem_cons_self
    · exact List.mem_cons_of_mem _ (mem_of_lookup_eq h)

theorem agree_field {js : List Job} (hu : Uniform js) {j : Job} (hj : j ∈ js) (a : Query × RelSpace) {c c' : Cache}
    (hc : Right js c) (hc' : Right js c') (h : FieldHdr) (t : Ty)
    (ht : tolower h.name = b!"result" → RecordType js t) :
    Agree mkSt (Right js) (analyzeField j.env (mkSt a c) h t) (analyzeField j.env (mkSt a c') h t) := by
  unfold analyzeField
  cases hl : List.lookup (tolower h.name) fldTable with
  | none =>
    simp only [analyzeTypedField, analyzeFilterField, analyzeErrorHandler, analyzeContext]
    agree hc hc'
  | some x =>
    cases x with
    | result =>
      have hn : tolower h.name = b!"result" := by
        have : ∀ p ∈ fldTable, p.2 = .result → p.1 = b!"result" := by decide
        exact this _ (mem_of_lookup_eq hl) rfl
      simp only [analyzeResult]
      refine Agree.same hc hc' (fun _ _ => ?_)
      obtain ⟨r, d, d', hd, hd', e, e'⟩ := agree_relType hu hj (ht hn) a.2 hc hc'
      simp only [mkSt, e, e']
      cases r with
      | ok rt => exact agree_ok hd hd' rfl rfl
      | err _ => exact agree_err hd hd' _
      | panic => exact ⟨.panic, d, d', hd, hd', rfl, rfl⟩
    | _ =>
      simp only [analyzeWhere, analyzeJoin, analyzeOnConflict, analyzeLimit, analyzeOffset, analyzeRowsAffected]
      agree hc hc'

theorem agree_fields {js : List Job} (hu : Uniform js) {j : Job} (hj : j ∈ js) : ∀ (fs : List Field)
    (a : Query × RelSpace) {c c' : Cache}, (∀ f ∈ fs, f ∈ j.fields) → Right js c → Right js c' →
    Agree mkSt (Right js) (queryFields j.env (mkSt a c) fs) (queryFields j.env (mkSt a c') fs)
  | [], a, c, c', _, hc, hc' => agree_ok hc hc' rfl rfl
  | f :: fs, a, c, c', hm, hc, hc' => by
    simp only [queryFields]
    refine Agree.bind (mk := mkSt) ?_ fun a d d' hd hd' =>
      agree_fields hu hj fs a (fun g hg => hm g (List.mem_cons_of_mem _ hg)) hd hd'
    unfold queryStep
    split
    · exact agree_ok hc hc' rfl rfl
    · refine Agree.same hc hc' fun d _ => ?_
      split
      · exact agree_directive a hc hc' _ _ _
      · exact agree_field hu hj a hc hc' _ _ fun hn => ⟨j, hj, f.1, hm f List.mem_cons_self, .inr hn⟩

def mkSt1 (a : QKind × Option RelField × RelSpace) (c : Cache) : St1 :=
  { kind := a.1, rel := a.2.1, rs := a.2.2, cache := c }

theorem agree1_map {V : Cache → Prop} {γ : Type} {r : R γ} {f g : γ → St1} {c c' : Cache} (hc : V c) (hc' : V c')
    (h1 : ∀ a, (f a).cache = c) (h2 : ∀ a, (g a).cache = c') (hk : ∀ a, (f a).kind = (g a).kind)
    (hq : ∀ a, (f a).rel = (g a).rel) (hr : ∀ a, (f a).rs = (g a).rs) :
    Agree mkSt1 V (r.map f) (r.map g) := by
  refine Agree.of_map hc hc' (fun a => ((f a).kind, (f a).rel, (f a).rs)) (fun a => ?_) (fun a => ?_)
  · rw [← h1 a]; rfl
  · rw [← h2 a, hk a, hq a, hr a]; rfl

theorem agree_relField {js : List Job} (hu : Uniform js) {j : Job} (hj : j ∈ js)
    (a : QKind × Option RelField × RelSpace) {c c' : Cache} (hc : Right js c) (hc' : Right js c') (h : FieldHdr)
    (t : Ty) (ht : RecordType js t) :
    Agree mkSt1 (Right js) (analyzeRelField j.env (mkSt1 a c) h t) (analyzeRelField j.env (mkSt1 a c') h t) := by
  simp only [analyzeRelField, toKind]
  refine Agree.same hc hc' fun _ _ => ?_
  refine Agree.same hc hc' fun rid _ => ?_
  refine Agree.same hc hc' fun rs _ => ?_
  split
  · exact agree1_map hc hc' (fun _ => rfl) (fun _ => rfl) (fun _ => rfl) (fun _ => rfl) (fun _ => rfl)
  · split
    · exact agree1_map hc hc' (fun _ => rfl) (fun _ => rfl) (fun _ => rfl) (fun _ => rfl) (fun _ => rfl)
    · split
      · exact agree1_map hc hc' (fun _ => rfl) (fun _ => rfl) (fun _ => rfl) (fun _ => rfl) (fun _ => rfl)
      · refine Agree.same hc hc' fun d _ => ?_
        split
        · exact agree1_map hc hc' (fun _ => rfl) (fun _ => rfl) (fun _ => rfl) (fun _ => rfl) (fun _ => rfl)
        · refine Agree.bind (agree_relType hu hj ht rs hc hc') fun rt d d' hd hd' => ?_
          exact agree1_map hd hd' (fun _ => rfl) (fun _ => rfl) (fun _ => rfl) (fun _ => rfl) (fun _ => rfl)

theorem agree_relFields {js : List Job} (hu : Uniform js) {j : Job} (hj : j ∈ js) : ∀ (fs : List Field)
    (a : QKind × Option RelField × RelSpace) {c c' : Cache}, (∀ f ∈ fs, f ∈ j.fields) → Right js c → Right js c' →
    Agree mkSt1 (Right js) (relFieldsLoop j.env (mkSt1 a c) fs) (relFieldsLoop j.env (mkSt1 a c') fs)
  | [], a, c, c', _, hc, hc' => ⟨.ok a, c, c', hc, hc', rfl, rfl⟩
  | f :: fs, a, c, c', hm, hc, hc' => by
    have ih := fun a {c c'} => agree_relFields hu hj fs a (c := c) (c' := c')
      (fun g hg => hm g (List.mem_cons_of_mem _ hg))
    simp only [relFieldsLoop]
    split
    · rename_i hr
      exact Agree.bind (agree_relField hu hj a hc hc' _ _ ⟨j, hj, f.1, hm f List.mem_cons_self, .inl hr⟩)
        fun a d d' hd hd' => ih a hd hd'
    · exact ih a hc hc'

theorem agree_query {js : List Job} (hu : Uniform js) {e : Env} {n : Bytes} {fs : List Field}
    (hj : Job.query e n fs ∈ js) {c c' : Cache} (hc : Right js c) (hc' : Right js c') :
    Agree mkSt (Right js) (analyzeQuery e c n fs) (analyzeQuery e c' n fs) := by
  unfold analyzeQuery
  refine Agree.same hc hc' fun k _ => ?_
  refine Agree.bind (agree_relFields hu hj fs (k, none, []) (fun _ h => h) hc hc') fun a d d' hd hd' => ?_
  obtain ⟨k, r, rs⟩ := a
  cases r with
  | none => exact agree_err hd hd' _
  | some r => exact agree_fields hu hj fs ({ typeName := n, kind := k, rel := r }, rs) (fun _ h => h) hd hd'

def mkFSt (a : Option RelField × Option ColIdent × Option (Bytes × Bool) × RelSpace) (c : Cache) : FSt :=
  { rel := a.1, textSearch := a.2.1, constructor := a.2.2.1, rs := a.2.2.2, cache := c }

theorem agreeF_map {V : Cache → Prop} {γ : Type} {r : R γ} {f g : γ → FSt} {c c' : Cache} (hc : V c) (hc' : V c')
    (h1 : ∀ a, (f a).cache = c) (h2 : ∀ a, (g a).cache = c') (hq : ∀ a, (f a).rel = (g a).rel)
    (ht : ∀ a, (f a).textSearch = (g a).textSearch) (hk : ∀ a, (f a).constructor = (g a).constructor)
    (hr : ∀ a, (f a).rs = (g a).rs) : Agree mkFSt V (r.map f) (r.map g) := by
  refine Agree.of_map hc hc' (fun a => ((f a).rel, (f a).textSearch, (f a).constructor, (f a).rs))
    (fun a => ?_) (fun a => ?_)
  · rw [← h1 a]; rfl
  · rw [← h2 a, hq a, ht a, hk a, hr a]; rfl

theorem agree_filterFields {js : List Job} (hu : Uniform js) {j : Job} (hj : j ∈ js) : ∀ (fs : List Field)
    (a : Option RelField × Option ColIdent × Option (Bytes × Bool) × RelSpace) {c c' : Cache},
    (∀ f ∈ fs, f ∈ j.fields) → Right js c → Right js c' →
    Agree mkFSt (Right js) (filterFields j.env (mkFSt a c) fs) (filterFields j.env (mkFSt a c') fs)
  | [], a, c, c', _, hc, hc' => ⟨.ok a, c, c', hc, hc', rfl, rfl⟩
  | f :: fs, a, c, c', hm, hc, hc' => by
    simp only [filterFields]
    refine Agree.bind (mk := mkFSt) ?_ fun a d d' hd hd' =>
      agree_filterFields hu hj fs a (fun g hg => hm g (List.mem_cons_of_mem _ hg)) hd hd'
    split
    · rename_i hr
      simp only [filterRel]
      refine Agree.same hc hc' fun _ _ => ?_
      refine Agree.same hc hc' fun rid _ => ?_
      refine Agree.same hc hc' fun rs _ => ?_
      refine Agree.bind (agree_relType hu hj ⟨j, hj, f.1, hm f List.mem_cons_self, .inl hr⟩ rs hc hc')
        fun rt d d' hd hd' => ?_
      exact agreeF_map hd hd' (fun _ => rfl) (fun _ => rfl) (fun _ => rfl) (fun _ => rfl) (fun _ => rfl) (fun _ => rfl)
    · simp only [filterField]
      refine Agree.same hc hc' fun d _ => ?_
      split
      · split
        · exact agreeF_map hc hc' (fun _ => rfl) (fun _ => rfl) (fun _ => rfl) (fun _ => rfl) (fun _ => rfl)
            (fun _ => rfl)
        · exact ⟨.err _, c, c', hc, hc', rfl, rfl⟩
      · split
        · exact agreeF_map hc hc' (fun _ => rfl) (fun _ => rfl) (fun _ => rfl) (fun _ => rfl) (fun _ => rfl)
            (fun _ => rfl)
        · exact ⟨.ok a, c, c', hc, hc', rfl, rfl⟩

theorem agree_job {js : List Job} (hu : Uniform js) {j : Job} (hj : j ∈ js) {c c' : Cache} (hc : Right js c)
    (hc' : Right js c') :
    Agree (fun (a : Analysed) (d : Cache) => (a, d)) (Right js) (runJob c j) (runJob c' j) := by
  cases j with
  | query e n fs =>
    obtain ⟨r, d, d', hd, hd', h, h'⟩ := agree_query hu hj hc hc'
    refine ⟨r.map fun a => .query a.1 a.2, d, d', hd, hd', ?_, ?_⟩
    · simp only [runJob, h]; cases r <;> rfl
    · simp only [runJob, h']; cases r <;> rfl
  | filter e n fs =>
    have h : Agree (fun (a : FilterStruct) (d : Cache) => (a, d)) (Right js) (analyzeFilter e c n fs)
        (analyzeFilter e c' n fs) := by
      unfold analyzeFilter
      refine Agree.bind (agree_filterFields hu hj fs (none, none, none, []) (fun _ h => h) hc hc')
        fun a d d' hd hd' => ?_
      obtain ⟨r, ts, k, rs⟩ := a
      cases r with
      | none => exact ⟨.err _, d, d', hd, hd', rfl, rfl⟩
      | some r =>
        cases k with
        | none => exact ⟨.err _, d, d', hd, hd', rfl, rfl⟩
        | some k => exact ⟨.ok _, d, d', hd, hd', rfl, rfl⟩
    obtain ⟨r, d, d', hd, hd', h, h'⟩ := h
    refine ⟨r.map .filter, d, d', hd, hd', ?_, ?_⟩
    · simp only [runJob, h]; cases r <;> rfl
    · simp only [runJob, h']; cases r <;> rfl

/-- **C72** The cache does not matter: analysed one after the other, the targets give what each gives by itself,
if record types of the same text are the same, are imported in all packages with targets or in none, and have no
qualified columns. -/
theorem C72_runs_partial {js : List Job} (hu : Uniform js) : runJobs [] js = eachAlone js := by
  have key : ∀ (ks : List Job) (c : Cache), (∀ k ∈ ks, k ∈ js) → Right js c → runJobs c ks = eachAlone ks := by
    intro ks
    induction ks with
    | nil => intro c _ _; rfl
    | cons k ks ih =>
      intro c hm hc
      obtain ⟨r, d, d', hd, hd', h, h'⟩ := agree_job hu (hm k List.mem_cons_self) hc (right_nil js)
      simp only [runJobs, eachAlone, h, h']
      cases r with
      | ok a =>
        simp only [Res.map_ok, Res.bind_ok]
        rw [ih d (fun x hx => hm x (List.mem_cons_of_mem _ hx)) hd]
      | err _ => rfl
      | panic => rfl
  exact key js [] (fun _ h => h) (right_nil js)

theorem eachAlone_perm {js js' : List Job} (h : js.Perm js') :
    ∀ out, eachAlone js = .ok out → ∃ out', eachAlone js' = .ok out' ∧ out.Perm out' := by
  induction h with
  | nil => intro out h; exact ⟨out, h, .refl _⟩
  | cons j _ ih =>
    intro out h
    simp only [eachAlone, Res.bind_eq_ok, Res.map_eq_ok] at h ⊢
    obtain ⟨p, hp, o, ho, rfl⟩ := h
    obtain ⟨o', ho', hperm⟩ := ih o ho
    exact ⟨_, ⟨p, hp, o', ho', rfl⟩, hperm.cons _⟩
  | swap j k l =>
    intro out h
    simp only [eachAlone, Res.bind_eq_ok, Res.map_eq_ok] at h ⊢
    obtain ⟨p, hp, o, ⟨q, hq, o2, ho2, rfl⟩, rfl⟩ := h
    exact ⟨_, ⟨q, hq, _, ⟨p, hp, o2, ho2, rfl⟩, rfl⟩, .swap _ _ _⟩
  | trans _ _ ih1 ih2 =>
    intro out h
    obtain ⟨o, ho, h1⟩ := ih1 out h
    obtain ⟨o', ho', h2⟩ := ih2 o ho
    exact ⟨o', ho', h1.trans h2⟩

theorem Uniform.perm {js js' : List Job} (h : js.Perm js') (hu : Uniform js) : Uniform js' := by
  have hr : ∀ t, RecordType js' t → RecordType js t := by
    rintro t ⟨j, hj, x⟩
    exact ⟨j, h.mem_iff.2 hj, x⟩
  exact ⟨fun t t' ht ht' => hu.text t t' (hr t ht) (hr t' ht'),
    fun j hj j' hj' t ht => hu.view j (h.mem_iff.2 hj) j' (h.mem_iff.2 hj') t (hr t ht),
    fun t ht => hu.plain t (hr t ht)⟩

/-- **C72** Nor does the order of the targets. -/
theorem C72_order_partial {js js' : List Job} (hu : Uniform js) (hp : js.Perm js') {out : List Analysed}
    (h : runJobs [] js = .ok out) : ∃ out', runJobs [] js' = .ok out' ∧ out.Perm out' := by
  rw [C72_runs_partial hu] at h
  rw [C72_runs_partial (hu.perm hp)]
  exact eachAlone_perm hp out h

/-- **C72** In one package with one configuration, the second condition holds. -/
theorem C72_one_package {js : List Job} (h : ∀ j ∈ js, ∀ j' ∈ js, j.env = j'.env) :
    ∀ j ∈ js, ∀ j' ∈ js, ∀ t, RecordType js t → SameView j.env j'.env t.paths := by
  intro j hj j' hj' t _
  rw [h j hj j' hj']
  exact .refl _ _

end Verif.Analysis
