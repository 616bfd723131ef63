import Verif.Analysis.PropsOrder

/-
C103, continued: the order of the fields of on-conflict, between and filter structs; examples.
-/
namespace Verif.Analysis

/-! ### On-conflict structs -/

/-- What a directive adds to an on-conflict struct. -/
inductive CVal where
  | column (l : List ColIdent) | index (n : Bytes) | constraint (n : Bytes) | ignore | update (l : ColIdentList)

def CVal.put : CVal → OnConflict → OnConflict
  | .column l, o => { o with column := some l }
  | .index n, o => { o with index := some n }
  | .constraint n, o => { o with constraint := some n }
  | .ignore, o => { o with ignore := true }
  | .update l, o => { o with update := some l }

def CVal.free : CVal → OnConflict → Prop
  | .column _, o | .index _, o | .constraint _, o => o.hasTarget = false
  | .ignore, o | .update _, o => o.hasAction = false

theorem conflictDirective_adds {rs : RelSpace} {oc oc' : OnConflict} {d : Bytes} {h : FieldHdr}
    (e : conflictDirective rs oc d h = .ok oc') :
    ∃ v : CVal, oc' = v.put oc ∧ v.free oc ∧ ∀ o, v.free o → conflictDirective rs o d h = .ok (v.put o) := by
  unfold conflictDirective at e ⊢
  by_cases h1 : tolower d = b!"column"
  · simp only [h1, ite_true, Res.bind_eq_ok, Res.map_eq_ok, failIf_none] at e ⊢
    obtain ⟨_, a, l, b, rfl⟩ := e
    exact ⟨.column l, rfl, a, fun o f => ⟨(), f, l, b, rfl⟩⟩
  simp only [h1, ite_false] at e ⊢
  by_cases h2 : tolower d = b!"index"
  · simp only [h2, ite_true, Res.bind_eq_ok, Res.map_eq_ok, failIf_none] at e ⊢
    obtain ⟨_, a, l, b, rfl⟩ := e
    exact ⟨.index _, rfl, a, fun o f => ⟨(), f, l, b, rfl⟩⟩
  simp only [h2, ite_false] at e ⊢
  by_cases h3 : tolower d = b!"constraint"
  · simp only [h3, ite_true, Res.bind_eq_ok, Res.map_eq_ok, failIf_none] at e ⊢
    obtain ⟨_, a, l, b, rfl⟩ := e
    exact ⟨.constraint _, rfl, a, fun o f => ⟨(), f, l, b, rfl⟩⟩
  simp only [h3, ite_false] at e ⊢
  by_cases h4 : tolower d = b!"ignore"
  · simp only [h4, ite_true, Res.map_eq_ok, failIf_none] at e ⊢
    obtain ⟨_, a, rfl⟩ := e
    exact ⟨.ignore, rfl, a, fun o f => ⟨(), f, rfl⟩⟩
  simp only [h4, ite_false] at e ⊢
  by_cases h5 : tolower d = b!"update"
  · simp only [h5, ite_true, Res.bind_eq_ok, Res.map_eq_ok, failIf_none] at e ⊢
    obtain ⟨_, a, l, b, rfl⟩ := e
    exact ⟨.update l, rfl, a, fun o f => ⟨(), f, l, b, rfl⟩⟩
  simp [h5] at e

theorem cval_exchange {v w : CVal} {o : OnConflict} (fv : v.free o) (fw : w.free (v.put o)) :
    v.put (w.put o) = w.put (v.put o) ∧ w.free o ∧ v.free (w.put o) := by
  cases v <;> cases w <;> first
    | exact ⟨rfl, fw, fv⟩
    | (simp [CVal.free, CVal.put, OnConflict.hasTarget, OnConflict.hasAction] at fw; done)

/-- One field of an on-conflict struct. -/
def conflictStep (rs : RelSpace) (oc : OnConflict) (f : Field) : R OnConflict :=
  if f.1.name ≠ b!"_" then .ok oc else (getDirectiveName f.2).bind fun d => conflictDirective rs oc d f.1

theorem conflictFields_cons (rs : RelSpace) (oc : OnConflict) (f : Field) (fs : List Field) :
    conflictFields rs oc (f :: fs) = (conflictStep rs oc f).bind fun oc => conflictFields rs oc fs := by
  obtain ⟨h, t⟩ := f
  simp only [conflictFields, conflictStep]
  split
  · rfl
  · cases getDirectiveName t <;> rfl

theorem conflictStep_adds {rs : RelSpace} {oc oc' : OnConflict} {f : Field} (e : conflictStep rs oc f = .ok oc') :
    (oc' = oc ∧ ∀ o, conflictStep rs o f = .ok o) ∨
      ∃ v : CVal, oc' = v.put oc ∧ v.free oc ∧ ∀ o, v.free o → conflictStep rs o f = .ok (v.put o) := by
  unfold conflictStep at e ⊢
  by_cases hn : f.1.name ≠ b!"_"
  · rw [if_pos hn] at e
    simp only [Res.ok.injEq] at e
    exact .inl ⟨e.symm, fun o => by rw [if_pos hn]⟩
  · rw [if_neg hn] at e
    simp only [hn, ite_false]
    rw [Res.bind_eq_ok] at e
    obtain ⟨d, hd, e⟩ := e
    obtain ⟨v, h1, h2, h3⟩ := conflictDirective_adds e
    exact .inr ⟨v, h1, h2, fun o ho => by rw [hd]; exact h3 o ho⟩

theorem conflictSteps_swap {rs : RelSpace} {o o1 o2 : OnConflict} {f g : Field}
    (h1 : conflictStep rs o f = .ok o1) (h2 : conflictStep rs o1 g = .ok o2) :
    ∃ t, conflictStep rs o g = .ok t ∧ conflictStep rs t f = .ok o2 := by
  rcases conflictStep_adds h1 with ⟨rfl, a⟩ | ⟨v, rfl, fv, a⟩
  · exact ⟨o2, h2, a o2⟩
  · rcases conflictStep_adds h2 with ⟨rfl, b⟩ | ⟨w, rfl, fw, b⟩
    · exact ⟨o, b o, h1⟩
    · obtain ⟨he, fw', fv'⟩ := cval_exchange fv fw
      exact ⟨w.put o, b o fw', by rw [← he]; exact a _ fv'⟩

theorem conflictFields_perm {rs : RelSpace} {fs gs : List Field} (hp : fs.Perm gs) :
    ∀ o o', conflictFields rs o fs = .ok o' → conflictFields rs o gs = .ok o' := by
  induction hp with
  | nil => exact fun _ _ h => h
  | cons x _ ih =>
    intro o o' h
    rw [conflictFields_cons, Res.bind_eq_ok] at h ⊢
    obtain ⟨o1, h1, h2⟩ := h
    exact ⟨o1, h1, ih _ _ h2⟩
  | swap x y l =>
    intro o o' h
    simp only [conflictFields_cons, Res.bind_eq_ok] at h ⊢
    obtain ⟨o1, h1, o2, h2, h3⟩ := h
    obtain ⟨t, h4, h5⟩ := conflictSteps_swap h1 h2
    exact ⟨t, h4, o2, h5, h3⟩
  | trans _ _ ih1 ih2 => exact fun o o' h => ih2 _ _ (ih1 _ _ h)

/-- **C103** The order of the directives of an on-conflict struct is irrelevant. -/
theorem C103_conflict (s s' : St) (h : FieldHdr) (t u : Ty) (n m : Option NamedInfo) (fs gs : Fields)
    (ht : getStruct t = some (n, fs)) (hu : getStruct u = some (m, gs)) (hp : fs.toList.Perm gs.toList) :
    analyzeOnConflict s h t = .ok s' ↔ analyzeOnConflict s h u = .ok s' := by
  simp only [analyzeOnConflict, ht, hu, Res.bind_eq_ok, Res.map_eq_ok]
  constructor
  · rintro ⟨x, h1, oc, h2, h3⟩; exact ⟨x, h1, oc, conflictFields_perm hp _ _ h2, h3⟩
  · rintro ⟨x, h1, oc, h2, h3⟩; exact ⟨x, h1, oc, conflictFields_perm hp.symm _ _ h2, h3⟩

/-! ### Between structs -/

/-- **C103** The two fields of a between struct may be exchanged. -/
theorem C103_between (env : Env) (rs : RelSpace) (t u : Ty) (n : Option NamedInfo) (h1 h2 : FieldHdr) (t1 t2 : Ty)
    (ht : getStruct t = some (n, .cons h1 t1 (.cons h2 t2 .nil)))
    (hu : getStruct u = some (n, .cons h2 t2 (.cons h1 t1 .nil))) (b : Bound × Bound) :
    betweenBounds env rs t = .ok b ↔ betweenBounds env rs u = .ok b := by
  have key : ∀ x y : Option (Bound × Option Bool), setBound y (setBound x (none, none)) ≠ setBound x (setBound y (none, none)) →
      (∃ l, setBound y (setBound x (none, none)) = (some l, none)) ∨
      (∃ l, setBound y (setBound x (none, none)) = (none, some l)) := by
    intro x y hne
    rcases x with _ | ⟨x, _ | _ | _⟩ <;> rcases y with _ | ⟨y, _ | _ | _⟩ <;> simp [setBound] at hne ⊢
  have dir : ∀ {t u : Ty} {h1 h2 : FieldHdr} {t1 t2 : Ty}, getStruct t = some (n, .cons h1 t1 (.cons h2 t2 .nil)) →
      getStruct u = some (n, .cons h2 t2 (.cons h1 t1 .nil)) → betweenBounds env rs t = .ok b →
      betweenBounds env rs u = .ok b := by
    intro t u h1 h2 t1 t2 ht hu e
    simp only [betweenBounds, ht, hu, Res.bind_eq_ok] at e ⊢
    obtain ⟨x, hx, y, hy, e⟩ := e
    refine ⟨y, hy, x, hx, ?_⟩
    by_cases he : setBound y (setBound x (none, none)) = setBound x (setBound y (none, none))
    · rw [← he]; exact e
    · rcases key x y he with ⟨l, hl⟩ | ⟨l, hl⟩ <;> rw [hl] at e <;> simp at e
  exact ⟨dir ht hu, dir hu ht⟩

/-! ### Filter structs -/

/-- The field is the TextSearch directive. -/
def IsSearch (f : Field) : Prop := IsDir b!"textsearch" f

/-- One field of a filter struct. -/
def filterStep (env : Env) (s : FSt) (f : Field) : R FSt :=
  if f.1.tag.has b!"rel" then filterRel env s f.1 f.2 else filterField s f.1 f.2

/-- What a field that does not hold the records does. -/
theorem filterField_adds {s s' : FSt} {f : Field} (hr : f.1.tag.has b!"rel" = false)
    (e : filterField s f.1 f.2 = .ok s') :
    (s' = s ∧ ∀ s2, filterField s2 f.1 f.2 = .ok s2) ∨
    (IsSearch f ∧ ∃ c, s' = { s with textSearch := some c } ∧
      ∀ s2 : FSt, Sub s.rs s2.rs → filterField s2 f.1 f.2 = .ok { s2 with textSearch := some c }) ∨
    (∃ c, s.constructor = none ∧ s' = { s with constructor := some c } ∧
      ∀ s2 : FSt, s2.constructor = none → filterField s2 f.1 f.2 = .ok { s2 with constructor := some c }) := by
  unfold filterField at e ⊢
  rw [Res.bind_eq_ok] at e
  obtain ⟨d, hd, e⟩ := e
  simp only [hd, Res.bind_ok]
  by_cases hn : f.1.name = b!"_" ∧ d.length > 0
  · rw [if_pos hn] at e
    simp only [if_pos hn]
    by_cases ht : lower d = b!"textsearch"
    · simp only [ht, ite_true, Res.map_eq_ok] at e ⊢
      obtain ⟨c, hc, rfl⟩ := e
      exact .inr (.inl ⟨isDir_of hr hn.1 hd hn.2 ht, c, rfl, fun s2 hs => ⟨c, parseColIdent_le hs _ _ hc, rfl⟩⟩)
    · simp [ht] at e
  · rw [if_neg hn] at e
    simp only [if_neg hn]
    by_cases hc : isFilterConstructor f.2 = true
    · simp only [hc, ite_true, Res.map_eq_ok, failIf_none] at e ⊢
      obtain ⟨_, hs, rfl⟩ := e
      exact .inr (.inr ⟨_, by simpa using hs, rfl, fun s2 h2 => ⟨(), by simp [h2], rfl⟩⟩)
    · simp only [hc] at e ⊢
      simp only [Bool.false_eq_true, ite_false, Res.ok.injEq] at e
      exact .inl ⟨e.symm, fun _ => rfl⟩

theorem filterRel_adds {env : Env} {s s' : FSt} {h : FieldHdr} {t : Ty} (e : filterRel env s h t = .ok s') :
    ∃ r rs c, s' = { s with rel := r, rs := rs, cache := c } ∧ Sub s.rs rs ∧
      ∀ s2 : FSt, s2.rel = s.rel → s2.rs = s.rs → s2.cache = s.cache →
        filterRel env s2 h t = .ok { s2 with rel := r, rs := rs, cache := c } := by
  simp only [filterRel, Res.bind_eq_ok, Res.map_eq_ok, failIf_none] at e
  obtain ⟨_, h1, rid, h2, rs, h3, p, h4, _, h5, rfl⟩ := e
  refine ⟨_, rs, _, rfl, addToRelSpace_sub h3, fun s2 a b c => ?_⟩
  simp only [filterRel, Res.bind_eq_ok, Res.map_eq_ok, failIf_none]
  exact ⟨(), a ▸ h1, rid, h2, rs, b ▸ h3, p, c ▸ h4, (), h5, rfl⟩

theorem filterSteps_swap {env : Env} {s s1 s2 : FSt} {f g : Field} (hf : f.1.tag.has b!"rel" = false)
    (hr : ¬ (IsSearch f ∧ IsSearch g)) (h1 : filterStep env s f = .ok s1) (h2 : filterStep env s1 g = .ok s2) :
    ∃ t, filterStep env s g = .ok t ∧ filterStep env t f = .ok s2 := by
  unfold filterStep at *
  simp only [hf, Bool.false_eq_true, ite_false] at h1 ⊢
  by_cases hg : g.1.tag.has b!"rel" = true
  · simp only [hg, ite_true] at h2 ⊢
    obtain ⟨r, rs, c, rfl, hs, ag⟩ := filterRel_adds h2
    rcases filterField_adds hf h1 with ⟨rfl, af⟩ | ⟨_, x, rfl, af⟩ | ⟨x, hx, rfl, af⟩
    · exact ⟨_, h2, af _⟩
    · exact ⟨_, ag s rfl rfl rfl, af _ hs⟩
    · exact ⟨_, ag s rfl rfl rfl, af _ hx⟩
  · simp only [Bool.not_eq_true] at hg
    simp only [hg, Bool.false_eq_true, ite_false] at h2 ⊢
    rcases filterField_adds hf h1 with ⟨rfl, af⟩ | ⟨sf, x, rfl, af⟩ | ⟨x, hx, rfl, af⟩
    · exact ⟨_, h2, af _⟩
    · rcases filterField_adds hg h2 with ⟨rfl, ag⟩ | ⟨sg, y, rfl, ag⟩ | ⟨y, hy, rfl, ag⟩
      · exact ⟨s, ag s, h1⟩
      · exact absurd ⟨sf, sg⟩ hr
      · exact ⟨_, ag s hy, af _ Sub.rfl⟩
    · rcases filterField_adds hg h2 with ⟨rfl, ag⟩ | ⟨sg, y, rfl, ag⟩ | ⟨y, hy, rfl, ag⟩
      · exact ⟨s, ag s, h1⟩
      · exact ⟨_, ag s Sub.rfl, af _ hx⟩
      · simp at hy

theorem filterFields_cons (env : Env) (s : FSt) (f : Field) (fs : List Field) :
    filterFields env s (f :: fs) = (filterStep env s f).bind fun s => filterFields env s fs := rfl

theorem filterFields_swap {env : Env} {f g : Field} (hf : f.1.tag.has b!"rel" = false)
    (hr : ¬ (IsSearch f ∧ IsSearch g)) (post : List Field) : ∀ (pre : List Field) (s s' : FSt),
    filterFields env s (pre ++ f :: g :: post) = .ok s' → filterFields env s (pre ++ g :: f :: post) = .ok s'
  | [], s, s', e => by
    simp only [List.nil_append, filterFields_cons, Res.bind_eq_ok] at e ⊢
    obtain ⟨s1, h1, s2, h2, h3⟩ := e
    obtain ⟨t, h4, h5⟩ := filterSteps_swap hf hr h1 h2
    exact ⟨t, h4, s2, h5, h3⟩
  | x :: pre, s, s', e => by
    simp only [List.cons_append, filterFields_cons, Res.bind_eq_ok] at e ⊢
    obtain ⟨s1, h1, h2⟩ := e
    exact ⟨s1, h1, filterFields_swap hf hr post pre s1 s' h2⟩

/-- **C103** Two fields of an accepted filter struct that follow each other may be exchanged, unless the first holds
the records or both are TextSearch directives. -/
theorem C103_filter (env : Env) (cache : Cache) (n : Bytes) (pre post : List Field) (f g : Field)
    (r : FilterStruct × Cache) (hf : f.1.tag.has b!"rel" = false) (hr : ¬ (IsSearch f ∧ IsSearch g))
    (h : analyzeFilter env cache n (pre ++ f :: g :: post) = .ok r) :
    analyzeFilter env cache n (pre ++ g :: f :: post) = .ok r := by
  unfold analyzeFilter at h ⊢
  rw [Res.bind_eq_ok] at h ⊢
  obtain ⟨s, h1, h2⟩ := h
  exact ⟨s, filterFields_swap hf hr post pre _ _ h1, h2⟩

/-! ### Examples -/

def postsJoin : Field :=
  ({ name := b!"Join" }, .struct (.ofList
    [({ name := b!"_", tag := [(b!"sql", [b!"posts:p", b!"p.user_id = u.id"])] }, gosqlDir b!"LeftJoin")]))

def postsWhere : Field :=
  ({ name := b!"Where" }, .struct (.ofList
    [({ name := b!"Title", tag := [(b!"sql", [b!"p.title"])] }, .basic .string b!"string")]))

def orderFld (v : Bytes) : Field := ({ name := b!"_", tag := [(b!"sql", [v])] }, gosqlDir b!"OrderBy")

def limitFld : Field := ({ name := b!"Limit" }, intTy)

/-- The columns of the ordering and the number of conditions and joins. -/
def partsOf (r : R St) : Option (List Bytes × Nat × Nat × Bool) :=
  match r with
  | .ok s => some ((s.q.orderBy.getD []).map fun o => o.colIdent.name, (s.q.wher.map fun w => w.items.length).getD 0,
      (s.q.join.map fun j => j.directives.length).getD 0, s.q.limit.isSome)
  | _ => none

/-- **C103** A query with every part, in two orders. -/
theorem C103_example :
    partsOf (analyzeQuery env0 [] b!"SelectUsers"
      [relFld (.slice userTy), postsJoin, postsWhere, orderFld b!"u.id", limitFld]) = some ([b!"id"], 1, 1, true) ∧
    partsOf (analyzeQuery env0 [] b!"SelectUsers"
      [postsJoin, limitFld, orderFld b!"u.id", relFld (.slice userTy), postsWhere]) = some ([b!"id"], 1, 1, true) := by
  decide +kernel

/-- **C103** A where struct that mentions a joined relation is rejected if it comes before the join struct. -/
theorem C103_not_join :
    codeOf (analyzeQuery env0 [] b!"SelectUsers" [relFld (.slice userTy), postsWhere, postsJoin]) =
      some .unknownColumnQualifier ∧
    partsOf (analyzeQuery env0 [] b!"SelectUsers" [relFld (.slice userTy), postsJoin, postsWhere]) =
      some ([], 1, 1, false) := by decide +kernel

/-- **C103** Of two OrderBy directives the last one counts; nothing is reported. -/
theorem C103_not_repeated :
    partsOf (analyzeQuery env0 [] b!"SelectUsers" [relFld (.slice userTy), orderFld b!"u.id", orderFld b!"u.name"]) =
      some ([b!"name"], 0, 0, false) ∧
    partsOf (analyzeQuery env0 [] b!"SelectUsers" [relFld (.slice userTy), orderFld b!"u.name", orderFld b!"u.id"]) =
      some ([b!"id"], 0, 0, false) := by decide +kernel

def searchFld (v : Bytes) : Field := ({ name := b!"_", tag := [(b!"sql", [v])] }, gosqlDir b!"TextSearch")

def filterFld : Field :=
  ({ name := b!"Filter" }, .named { name := b!"F", pkg := some { path := b!"p", name := b!"p" }, isFilterConstructor := true }
    (.struct .nil))

/-- The text search column and the constructor. -/
def filterParts (r : R (FilterStruct × Cache)) : Option (Option ColIdent × Bytes) :=
  match r with
  | .ok s => some (s.1.textSearch, s.1.constructor.1)
  | _ => none

/-- **C103** A TextSearch directive with a qualifier is rejected if it comes before the field with the records, which
is not looked up first as it is for queries. -/
theorem C103_not_filter :
    codeOf (analyzeFilter env0 [] b!"FilterUsers" [searchFld b!"u._doc", relFld userTy, filterFld]) =
      some .unknownColumnQualifier ∧
    filterParts (analyzeFilter env0 [] b!"FilterUsers" [relFld userTy, filterFld, searchFld b!"u._doc"]) =
      some (some { qualifier := b!"u", name := b!"_doc" }, b!"Filter") ∧
    filterParts (analyzeFilter env0 [] b!"FilterUsers" [filterFld, relFld userTy, searchFld b!"u._doc"]) =
      some (some { qualifier := b!"u", name := b!"_doc" }, b!"Filter") := by decide +kernel

def conflictTy (ds : List (Bytes × Bytes)) : Ty :=
  .struct (.ofList (ds.map fun d => (({ name := b!"_", tag := [(b!"sql", [d.2])] } : FieldHdr), gosqlDir d.1)))

/-- The on-conflict struct of an accepted query. -/
def conflictParts (r : R St) : Option (Option (List Bytes) × Bool) :=
  match r with
  | .ok s => s.q.onConflict.map fun o => (o.column.map (·.map (·.name)), o.update.isSome)
  | _ => none

example :
    conflictParts (analyzeQuery env0 [] b!"InsertUser" [relFld (.ptr userTy),
      ({ name := b!"OnConflict" }, conflictTy [(b!"Update", b!"*"), (b!"Column", b!"id")])]) = some (some [b!"id"], true) ∧
    conflictParts (analyzeQuery env0 [] b!"InsertUser" [({ name := b!"OnConflict" },
      conflictTy [(b!"Column", b!"id"), (b!"Update", b!"*")]), relFld (.ptr userTy)]) = some (some [b!"id"], true) := by
  decide +kernel

/-- The hypotheses of `C103_order` and `C103_join_first` can be met. -/
theorem order_hyps : (∀ f ∈ [relFld (.slice userTy), postsWhere, orderFld b!"u.id", limitFld], ¬ IsJoin f) ∧
    [relFld (.slice userTy), postsWhere, orderFld b!"u.id", limitFld].Pairwise (fun f g => ¬ Repeats f g) ∧
    IsJoin postsJoin := by
  have h1 : ∀ f ∈ [relFld (.slice userTy), postsWhere, limitFld], f.1.name ≠ b!"_" ∧
      tolower f.1.name ≠ b!"onconflict" ∧ tolower f.1.name ≠ b!"join" ∧ tolower f.1.name ≠ b!"from" ∧
      tolower f.1.name ≠ b!"using" := by decide
  have no : ∀ f g : Field, f.1.name ≠ b!"_" → tolower f.1.name ≠ b!"onconflict" → ¬ Repeats f g := by
    rintro f g a b (⟨_, _, h, _⟩ | ⟨h, _⟩)
    · exact a h.2.1
    · exact b h.2
  refine ⟨?_, ?_, .inl ⟨by decide, by decide⟩⟩
  · intro f hf
    have h2 : ∀ f ∈ [relFld (.slice userTy), postsWhere, orderFld b!"u.id", limitFld],
      tolower f.1.name ≠ b!"join" ∧ tolower f.1.name ≠ b!"from" ∧ tolower f.1.name ≠ b!"using" := by decide
    obtain ⟨a, b, c⟩ := h2 f hf
    rintro (h | h | h)
    · exact a h.2
    · exact b h.2
    · exact c h.2
  · have r1 := h1 (relFld (.slice userTy)) (by simp)
    have r2 := h1 postsWhere (by simp)
    have r3 := h1 limitFld (by simp)
    simp only [List.pairwise_cons, List.mem_cons, List.not_mem_nil, or_false, false_imp_iff, implies_true,
      List.Pairwise.nil, and_true]
    exact ⟨fun g _ => no _ g r1.1 r1.2.1, fun g _ => no _ g r2.1 r2.2.1,
      fun g hg h => by subst hg; exact no _ _ r3.1 r3.2.1 h.symm⟩

end Verif.Analysis
