import Verif.Analysis.PropsQuery2

/-
The names in an accepted query are identifiers. (Those of its columns: `Declared` in PropsQuery2.lean.)
-/
namespace Verif.Analysis

def RelNamed (r : RelIdent) : Prop := OptIdent r.qualifier ∧ Ident r.name ∧ OptIdent r.alias

/-- The columns of a record. -/
def RecNamed (t : RelType) : Prop := ∀ f ∈ t.fields, ColNamed f.colIdent

def CacheNamed (c : Cache) : Prop := ∀ k t, List.lookup k c = some t → RecNamed t

def ConflictNamed (oc : OnConflict) : Prop :=
  (∀ n, oc.constraint = some n → Ident n) ∧ ∀ l, oc.update = some l → ∀ c ∈ l.items, ColNamed c

def JoinNamed (j : JoinStruct) : Prop :=
  (∀ r, j.relation = some r → RelNamed r) ∧ ∀ d ∈ j.directives, RelNamed d.relIdent

structure Named (q : Query) : Prop where
  rel : RelNamed q.rel.id
  fields : RecNamed q.rel.type
  result : ∀ r, q.result = some r → RecNamed r.2
  join : ∀ j, q.join = some j → JoinNamed j
  conflict : ∀ oc, q.onConflict = some oc → ConflictNamed oc

theorem parseRelIdent_named {v : Bytes} {r : RelIdent} (h : parseRelIdent v = .ok r) : RelNamed r := by
  have := (C28_rel_ident v r).1 h
  exact ⟨this.2.2.1, this.1, this.2.1⟩

/-! ### Records -/

mutual
theorem fieldsOf_named (env : Env) (rs : RelSpace) : ∀ (fs : Fields) (pfx : Bytes) (sel : List SelNode) (imp : Bool)
    (l : List FieldInfo), fieldsOf env rs pfx sel imp fs = .ok l → ∀ f ∈ l, ColNamed f.colIdent
  | .nil, pfx, sel, imp, l, h => by
    rw [fieldsOf] at h; cases h; simp
  | .cons hd t rest, pfx, sel, imp, l, h => by
    rw [fieldsOf] at h
    split at h
    · exact fieldsOf_named env rs rest _ _ _ _ h
    · rw [Res.bind_eq_ok] at h
      obtain ⟨p, _, h⟩ := h
      split at h
      · simp only [Res.bind_eq_ok, Res.map_eq_ok] at h
        obtain ⟨m, _, fs, h1, gs, h2, rfl⟩ := h
        intro f hf
        rcases List.mem_append.1 hf with hf | hf
        · exact descend_named env rs t _ _ _ _ h1 f hf
        · exact fieldsOf_named env rs rest _ _ _ _ h2 f hf
      · simp only [Res.bind_eq_ok, Res.map_eq_ok] at h
        obtain ⟨g, h1, gs, h2, rfl⟩ := h
        intro f hf
        rcases List.mem_cons.1 hf with rfl | hf
        · unfold leafField at h1
          simp only [Res.bind_eq_ok, Res.map_eq_ok] at h1
          obtain ⟨c, hc, m, _, rfl⟩ := h1
          exact (parseColIdent_declared hc).1
        · exact fieldsOf_named env rs rest _ _ _ _ h2 f hf
theorem descend_named (env : Env) (rs : RelSpace) : ∀ (t : Ty) (pfx : Bytes) (sel : List SelNode) (imp : Bool)
    (l : List FieldInfo), descend env rs pfx sel imp t = .ok l → ∀ f ∈ l, ColNamed f.colIdent
  | .struct fs, pfx, sel, imp, l, h => by
    rw [descend] at h; exact fieldsOf_named env rs fs _ _ _ _ h
  | .named _ u, pfx, sel, imp, l, h => by
    rw [descend] at h; exact descend_named env rs u _ _ _ _ h
  | .ptr e, pfx, sel, imp, l, h => by
    rw [descend] at h; exact descend_named env rs e _ _ _ _ h
  | .basic _ _, pfx, sel, imp, l, h => by simp [descend] at h
  | .slice _, pfx, sel, imp, l, h => by simp [descend] at h
  | .array _ _, pfx, sel, imp, l, h => by simp [descend] at h
  | .map _ _, pfx, sel, imp, l, h => by simp [descend] at h
  | .chan, pfx, sel, imp, l, h => by simp [descend] at h
  | .func _ _, pfx, sel, imp, l, h => by simp [descend] at h
  | .iface _ _, pfx, sel, imp, l, h => by simp [descend] at h
end

theorem CacheNamed.store {c : Cache} (h : CacheNamed c) (k : Option Bytes) (n : Option NamedInfo) {t : RelType}
    (ht : RecNamed t) : CacheNamed (store k n t c) := by
  unfold Analysis.store
  split
  · intro k' t' hl
    rw [List.lookup_cons] at hl
    split at hl
    · cases hl; exact ht
    · exact h _ _ hl
  · exact h

theorem analyzeRelType_named {env : Env} {rs : RelSpace} {c : Cache} {t : Ty} {p : RelType × Cache}
    (hc : CacheNamed c) (h : analyzeRelType env rs c t = .ok p) : RecNamed p.1 ∧ CacheNamed p.2 := by
  unfold analyzeRelType at h
  split at h
  · next rt hl =>
    cases h
    rw [Option.bind_eq_some_iff] at hl
    obtain ⟨k, _, hl⟩ := hl
    exact ⟨hc _ _ hl, hc⟩
  · simp only [Res.bind_eq_ok, Res.map_eq_ok] at h
    obtain ⟨s, _, rt, _, rt', h3, rfl⟩ := h
    have : RecNamed rt' := by
      unfold relFields at h3
      split at h3
      · rw [Res.map_eq_ok] at h3
        obtain ⟨l, hl, rfl⟩ := h3
        exact fieldsOf_named _ _ _ _ _ _ _ hl
      · simp at h3
    exact ⟨this, hc.store _ _ this⟩

/-! ### Joins and conflicts -/

theorem joinFields_named {rs rs' : RelSpace} {j j' : JoinStruct} {fs : List Field}
    (e : joinFields rs j fs = .ok (rs', j')) (h : JoinNamed j) : JoinNamed j' := by
  induction fs generalizing rs j with
  | nil =>
    rw [joinFields] at e
    simp only [Res.ok.injEq, Prod.mk.injEq] at e
    rw [← e.2]
    exact h
  | cons f fs ih =>
    obtain ⟨hd, t⟩ := f
    rw [joinFields] at e
    split at e
    · exact ih e h
    · simp only [Res.bind_eq_ok] at e
      obtain ⟨d, _, p, hp, e⟩ := e
      refine ih e ?_
      split at hp
      · unfold joinRelation at hp
        split at hp
        · simp at hp
        · split at hp
          · simp at hp
          · simp only [Res.bind_eq_ok, Res.map_eq_ok] at hp
            obtain ⟨rid, hr, rs1, h1, rfl⟩ := hp
            exact ⟨fun r e => by cases e; exact parseRelIdent_named hr, h.2⟩
      · split at hp
        · unfold joinDirective at hp
          simp only [Res.bind_eq_ok, Res.map_eq_ok] at hp
          obtain ⟨rid, hr, rs1, h1, items, h2, rfl⟩ := hp
          refine ⟨h.1, ?_⟩
          intro d hd
          simp only [List.mem_append, List.mem_singleton] at hd
          rcases hd with hd | rfl
          · exact h.2 d hd
          · exact parseRelIdent_named hr
        · simp at hp

theorem rxIdent_named {v : Bytes} (h : rxIdent.matches v = true) : Ident v := by
  rw [Rx.matches_iff] at h
  exact (ident_iff v).1 h

theorem conflictDirective_named {rs : RelSpace} {oc oc' : OnConflict} {d : Bytes} {h : FieldHdr}
    (e : conflictDirective rs oc d h = .ok oc') (hn : ConflictNamed oc) : ConflictNamed oc' := by
  unfold conflictDirective at e
  split at e
  · simp only [Res.bind_eq_ok, Res.map_eq_ok] at e
    obtain ⟨_, _, ids, _, rfl⟩ := e; exact hn
  split at e
  · simp only [Res.bind_eq_ok, Res.map_eq_ok] at e
    obtain ⟨_, _, _, _, rfl⟩ := e; exact hn
  split at e
  · simp only [Res.bind_eq_ok, Res.map_eq_ok] at e
    obtain ⟨_, _, _, h2, rfl⟩ := e
    have h2 := failIf_ok h2
    refine ⟨fun n e => ?_, hn.2⟩
    cases e
    exact rxIdent_named (by simpa using h2)
  split at e
  · simp only [Res.map_eq_ok] at e
    obtain ⟨_, _, rfl⟩ := e; exact hn
  split at e
  · simp only [Res.bind_eq_ok, Res.map_eq_ok] at e
    obtain ⟨_, _, l, hl, rfl⟩ := e
    refine ⟨hn.1, fun l' e => ?_⟩
    cases e
    exact fun c hc => (parseColIdentList_declared hl c hc).1
  · simp at e

theorem conflictFields_named {rs : RelSpace} {oc oc' : OnConflict} {fs : List Field}
    (e : conflictFields rs oc fs = .ok oc') (hn : ConflictNamed oc) : ConflictNamed oc' := by
  induction fs generalizing oc with
  | nil => rw [conflictFields] at e; cases e; exact hn
  | cons f fs ih =>
    obtain ⟨hd, t⟩ := f
    rw [conflictFields] at e
    split at e
    · exact ih e hn
    · simp only [Res.bind_eq_ok] at e
      obtain ⟨d, _, oc1, h1, e⟩ := e
      exact ih e (conflictDirective_named h1 hn)

/-! ### The query -/

/-- What a step keeps. -/
def NamedSt (s : St) : Prop := Named s.q ∧ CacheNamed s.cache

/-- The clause has nothing to do with these names. -/
theorem NamedSt.other {s : St} {q : Query} {rs : RelSpace} (h : NamedSt s) (h1 : q.rel = s.q.rel)
    (h2 : q.result = s.q.result) (h3 : q.join = s.q.join) (h4 : q.onConflict = s.q.onConflict) :
    NamedSt { q := q, rs := rs, cache := s.cache } :=
  ⟨⟨h1 ▸ h.1.rel, h1 ▸ h.1.fields, h2 ▸ h.1.result, h3 ▸ h.1.join, h4 ▸ h.1.conflict⟩, h.2⟩

theorem analyzeDirective_named {s s' : St} {h : FieldHdr} {t : Ty} {d : Bytes} (f : NamedSt s)
    (e : analyzeDirective s h t d = .ok s') : NamedSt s' := by
  unfold analyzeDirective at e
  split at e
  · simp only [analyzeAll, Res.bind_eq_ok, Res.map_eq_ok] at e
    obtain ⟨_, _, _, _, _, _, rfl⟩ := e; exact f.other rfl rfl rfl rfl
  · simp only [analyzeDefault, Res.bind_eq_ok, Res.map_eq_ok] at e
    obtain ⟨_, _, _, _, rfl⟩ := e; exact f.other rfl rfl rfl rfl
  · simp only [analyzeForce, Res.bind_eq_ok, Res.map_eq_ok] at e
    obtain ⟨_, _, _, _, _, _, rfl⟩ := e; exact f.other rfl rfl rfl rfl
  · simp only [analyzeOptional, Res.bind_eq_ok, Res.map_eq_ok] at e
    obtain ⟨_, _, _, _, _, _, rfl⟩ := e; exact f.other rfl rfl rfl rfl
  · simp only [analyzeReturn, Res.bind_eq_ok, Res.map_eq_ok] at e
    obtain ⟨_, _, _, _, _, _, _, _, rfl⟩ := e; exact f.other rfl rfl rfl rfl
  · simp only [analyzeLimit, Res.bind_eq_ok, Res.map_eq_ok] at e
    obtain ⟨_, _, _, _, _, _, rfl⟩ := e; exact f.other rfl rfl rfl rfl
  · simp only [analyzeOffset, Res.bind_eq_ok, Res.map_eq_ok] at e
    obtain ⟨_, _, _, _, _, _, rfl⟩ := e; exact f.other rfl rfl rfl rfl
  · simp only [analyzeOrderBy, Res.bind_eq_ok, Res.map_eq_ok] at e
    obtain ⟨_, _, _, _, _, _, rfl⟩ := e; exact f.other rfl rfl rfl rfl
  · simp only [analyzeOverride, Res.bind_eq_ok] at e
    obtain ⟨_, _, e⟩ := e
    split at e
    · cases e; exact f.other rfl rfl rfl rfl
    · split at e
      · cases e; exact f.other rfl rfl rfl rfl
      · simp at e
  · simp at e

theorem analyzeField_named {env : Env} {s s' : St} {h : FieldHdr} {t : Ty} (f : NamedSt s)
    (e : analyzeField env s h t = .ok s') : NamedSt s' := by
  unfold analyzeField at e
  split at e
  · simp only [analyzeWhere, Res.bind_eq_ok] at e
    obtain ⟨_, _, e⟩ := e
    split at e
    · simp at e
    · rw [Res.map_eq_ok] at e
      obtain ⟨_, _, rfl⟩ := e; exact f.other rfl rfl rfl rfl
  · simp only [analyzeJoin, Res.bind_eq_ok] at e
    obtain ⟨_, _, e⟩ := e
    split at e
    · simp at e
    · rw [Res.map_eq_ok] at e
      obtain ⟨p, hp, rfl⟩ := e
      have := joinFields_named hp ⟨by simp, by simp⟩
      exact ⟨{ f.1 with join := fun j e => by cases e; exact this }, f.2⟩
  · simp only [analyzeOnConflict, Res.bind_eq_ok] at e
    obtain ⟨_, _, e⟩ := e
    split at e
    · simp at e
    · simp only [Res.bind_eq_ok, Res.map_eq_ok] at e
      obtain ⟨oc, ho, _, _, rfl⟩ := e
      have := conflictFields_named ho ⟨by simp, by simp⟩
      exact ⟨{ f.1 with conflict := fun j e => by cases e; exact this }, f.2⟩
  · simp only [analyzeResult, Res.bind_eq_ok, Res.map_eq_ok] at e
    obtain ⟨_, _, p, hp, rfl⟩ := e
    have := analyzeRelType_named f.2 hp
    exact ⟨{ f.1 with result := fun j e => by cases e; exact this.1 }, this.2⟩
  · simp only [analyzeLimit, Res.bind_eq_ok, Res.map_eq_ok] at e
    obtain ⟨_, _, _, _, _, _, rfl⟩ := e; exact f.other rfl rfl rfl rfl
  · simp only [analyzeOffset, Res.bind_eq_ok, Res.map_eq_ok] at e
    obtain ⟨_, _, _, _, _, _, rfl⟩ := e; exact f.other rfl rfl rfl rfl
  · simp only [analyzeRowsAffected, Res.bind_eq_ok, Res.map_eq_ok] at e
    obtain ⟨_, _, _, _, rfl⟩ := e; exact f.other rfl rfl rfl rfl
  · unfold analyzeTypedField at e
    rw [Res.bind_eq_ok] at e
    obtain ⟨_, _, e⟩ := e
    split at e
    · rw [Res.bind_eq_ok] at e
      obtain ⟨_, _, e⟩ := e
      split at e
      · simp only [analyzeFilterField, Res.map_eq_ok] at e
        obtain ⟨_, _, rfl⟩ := e; exact f.other rfl rfl rfl rfl
      split at e
      · simp only [analyzeErrorHandler, Res.map_eq_ok] at e
        obtain ⟨_, _, rfl⟩ := e; exact f.other rfl rfl rfl rfl
      split at e
      · simp only [analyzeErrorHandler, Res.map_eq_ok] at e
        obtain ⟨_, _, rfl⟩ := e; exact f.other rfl rfl rfl rfl
      split at e
      · simp only [analyzeContext, Res.map_eq_ok] at e
        obtain ⟨_, _, rfl⟩ := e; exact f.other rfl rfl rfl rfl
      · cases e; exact f
    · cases e; exact f

theorem queryFields_named {env : Env} {s s' : St} {fs : List Field} (f : NamedSt s)
    (e : queryFields env s fs = .ok s') : NamedSt s' := by
  induction fs generalizing s with
  | nil => rw [queryFields] at e; cases e; exact f
  | cons fd fs ih =>
    rw [queryFields, Res.bind_eq_ok] at e
    obtain ⟨s1, h1, e⟩ := e
    refine ih ?_ e
    unfold queryStep at h1
    split at h1
    · cases h1; exact f
    · rw [Res.bind_eq_ok] at h1
      obtain ⟨d, _, h1⟩ := h1
      split at h1
      · exact analyzeDirective_named f h1
      · exact analyzeField_named f h1

/-- What the first pass keeps. -/
def NamedSt1 (s : St1) : Prop := (∀ r, s.rel = some r → RelNamed r.id ∧ RecNamed r.type) ∧ CacheNamed s.cache

theorem recNamed_nil : RecNamed {} := by intro f hf; simp at hf

theorem toKind_named {s s' : St1} {k : QKind} {r : RelField} {rs : RelSpace} (h : NamedSt1 s)
    (hr : RelNamed r.id ∧ RecNamed r.type) (e : toKind s k r rs = .ok s') : NamedSt1 s' := by
  unfold toKind at e
  rw [Res.map_eq_ok] at e
  obtain ⟨_, _, rfl⟩ := e
  exact ⟨fun r' e => by cases e; exact hr, h.2⟩

theorem analyzeRelField_named {env : Env} {s s' : St1} {h : FieldHdr} {t : Ty} (f : NamedSt1 s)
    (e : analyzeRelField env s h t = .ok s') : NamedSt1 s' := by
  unfold analyzeRelField at e
  simp only [Res.bind_eq_ok] at e
  obtain ⟨_, _, rid, hr, rs, _, e⟩ := e
  have hr := parseRelIdent_named hr
  split at e
  · exact toKind_named f ⟨hr, recNamed_nil⟩ e
  split at e
  · exact toKind_named f ⟨hr, recNamed_nil⟩ e
  split at e
  · exact toKind_named f ⟨hr, recNamed_nil⟩ e
  simp only [Res.bind_eq_ok] at e
  obtain ⟨d, _, e⟩ := e
  split at e
  · rw [Res.map_eq_ok] at e
    obtain ⟨_, _, rfl⟩ := e
    exact ⟨fun r' e => by cases e; exact ⟨hr, recNamed_nil⟩, f.2⟩
  · simp only [Res.bind_eq_ok, Res.map_eq_ok] at e
    obtain ⟨p, hp, _, _, rfl⟩ := e
    have := analyzeRelType_named f.2 hp
    exact ⟨fun r' e => by cases e; exact ⟨hr, this.1⟩, this.2⟩

theorem relFieldsLoop_named {env : Env} {s s' : St1} {fs : List Field} (f : NamedSt1 s)
    (e : relFieldsLoop env s fs = .ok s') : NamedSt1 s' := by
  induction fs generalizing s with
  | nil => rw [relFieldsLoop] at e; cases e; exact f
  | cons fd fs ih =>
    rw [relFieldsLoop] at e
    split at e
    · rw [Res.bind_eq_ok] at e
      obtain ⟨s1, h1, e⟩ := e
      exact ih (analyzeRelField_named f h1) e
    · exact ih f e

/-- The names in an accepted query are identifiers, and so are those in the cache after it. -/
theorem analyzeQuery_named {env : Env} {cache : Cache} {n : Bytes} {fs : List Field} {s : St}
    (hc : CacheNamed cache) (e : analyzeQuery env cache n fs = .ok s) : Named s.q ∧ CacheNamed s.cache := by
  obtain ⟨k, r, s1, h1, _, hr, h⟩ := analyzeQuery_split e
  have f := relFieldsLoop_named ⟨by simp, hc⟩ h1
  exact queryFields_named ⟨⟨(f.1 r hr).1, (f.1 r hr).2, by simp, by simp, by simp⟩, f.2⟩ h

theorem cacheNamed_nil : CacheNamed [] := by intro k t h; simp at h

end Verif.Analysis
