import Verif.Analysis.PropsNamed

/- Property C105: the relations of an accepted query have different keys. -/
namespace Verif.Analysis

/-- The relations that a join struct declares, in the order of the statement. -/
def JoinStruct.rels (j : JoinStruct) : List RelIdent := j.relation.toList ++ j.directives.map (·.relIdent)

/-- The relations that are joined to that of the records. -/
def Query.joined (q : Query) : List RelIdent := (q.join.map JoinStruct.rels).getD []

/-- The relations of a query have different keys, and all of these are declared. -/
def Spaced (rs : RelSpace) (l : List RelIdent) : Prop :=
  (l.map relKey).Nodup ∧ ∀ r ∈ l, (rs.get (relKey r)).isSome = true

theorem addToRelSpace_key {rs rs' : RelSpace} {id : RelIdent} (h : addToRelSpace rs id = .ok rs') :
    rs.get (relKey id) = none ∧ rs' = (relKey id, id) :: rs := by
  unfold addToRelSpace at h
  unfold relKey
  split at h
  · next ha =>
    have : id.alias ≠ [] := List.length_pos_iff.1 ha
    split at h
    · cases h
    · next hn => cases h; simp [this, hn]
  · next ha =>
    have : id.alias = [] := by simpa using ha
    split at h
    · cases h
    · next hn => cases h; simp [this, hn]

theorem get_cons_isSome {rs : RelSpace} {k k' : Bytes} {r : RelIdent} :
    (RelSpace.get ((k', r) :: rs) k).isSome = true ↔ k = k' ∨ (rs.get k).isSome = true := by
  unfold RelSpace.get
  rw [List.lookup_cons]
  by_cases h : k = k'
  · simp [h]
  · have : (k == k') = false := by simp [h]
    rw [this]
    simp only [h, false_or]

/-- One more relation, wherever it is put. -/
theorem Spaced.add {rs rs' : RelSpace} {a b : List RelIdent} {id : RelIdent} (h : Spaced rs (a ++ b))
    (e : addToRelSpace rs id = .ok rs') : Spaced rs' (a ++ id :: b) := by
  obtain ⟨hn, rfl⟩ := addToRelSpace_key e
  have hp : (a ++ id :: b).Perm (id :: (a ++ b)) := List.perm_middle
  refine ⟨(hp.map relKey).nodup_iff.2 ?_, ?_⟩
  · rw [List.map_cons, List.nodup_cons]
    refine ⟨?_, h.1⟩
    intro hm
    obtain ⟨r, hr, hk⟩ := List.mem_map.1 hm
    have := h.2 r hr
    rw [hk, hn] at this
    cases this
  · intro r hr
    rw [get_cons_isSome]
    rcases List.mem_cons.1 (hp.mem_iff.1 hr) with rfl | hr
    · exact .inl rfl
    · exact .inr (h.2 r hr)

theorem joinRelation_spaced {rs : RelSpace} {j : JoinStruct} {h : FieldHdr} {p : RelSpace × JoinStruct} {r : RelIdent}
    (e : joinRelation rs j h = .ok p) (hs : Spaced rs (r :: j.rels)) : Spaced p.1 (r :: p.2.rels) := by
  unfold joinRelation at e
  split at e
  · cases e
  split at e
  · cases e
  · next hr =>
    simp only [Res.bind_eq_ok, Res.map_eq_ok] at e
    obtain ⟨rid, _, rs', ha, rfl⟩ := e
    have hr : j.relation = none := by simpa using hr
    simp only [JoinStruct.rels, hr, Option.toList_none, List.nil_append] at hs
    exact Spaced.add (a := [r]) hs ha

theorem joinDirective_spaced {rs : RelSpace} {j : JoinStruct} {d : Bytes} {h : FieldHdr} {p : RelSpace × JoinStruct}
    {r : RelIdent} (e : joinDirective rs j d h = .ok p) (hs : Spaced rs (r :: j.rels)) :
    Spaced p.1 (r :: p.2.rels) := by
  unfold joinDirective at e
  simp only [Res.bind_eq_ok, Res.map_eq_ok] at e
  obtain ⟨rid, _, rs', ha, items, _, rfl⟩ := e
  have := Spaced.add (a := r :: j.rels) (b := []) (by simpa using hs) ha
  simpa [JoinStruct.rels] using this

theorem joinFields_spaced {fs : List Field} : ∀ {rs : RelSpace} {j : JoinStruct} {p : RelSpace × JoinStruct}
    {r : RelIdent}, joinFields rs j fs = .ok p → Spaced rs (r :: j.rels) → Spaced p.1 (r :: p.2.rels) := by
  induction fs with
  | nil => intro rs j p r e hs; rw [joinFields] at e; cases e; exact hs
  | cons f fs ih =>
    intro rs j p r e hs
    obtain ⟨hd, t⟩ := f
    rw [joinFields] at e
    split at e
    · exact ih e hs
    · simp only [Res.bind_eq_ok] at e
      obtain ⟨d, _, p1, h1, e⟩ := e
      refine ih e ?_
      split at h1
      · exact joinRelation_spaced h1 hs
      split at h1
      · exact joinDirective_spaced h1 hs
      · cases h1

/-- Only the join structs of updates and deletes have a relation of their own. -/
def JoinStruct.Placed (j : JoinStruct) : Prop :=
  j.relation ≠ none → tolower j.fieldName = b!"from" ∨ tolower j.fieldName = b!"using"

theorem joinFields_placed {fs : List Field} : ∀ {rs : RelSpace} {j : JoinStruct} {p : RelSpace × JoinStruct},
    joinFields rs j fs = .ok p → j.Placed → p.2.Placed := by
  induction fs with
  | nil => intro rs j p e hs; rw [joinFields] at e; cases e; exact hs
  | cons f fs ih =>
    intro rs j p e hs
    obtain ⟨hd, t⟩ := f
    rw [joinFields] at e
    split at e
    · exact ih e hs
    · simp only [Res.bind_eq_ok] at e
      obtain ⟨d, _, p1, h1, e⟩ := e
      refine ih e ?_
      split at h1
      · unfold joinRelation at h1
        split at h1
        · cases h1
        · next hf =>
          split at h1
          · cases h1
          · simp only [Res.bind_eq_ok, Res.map_eq_ok] at h1
            obtain ⟨rid, _, rs', ha, rfl⟩ := h1
            intro _
            by_cases h : tolower j.fieldName = b!"from"
            · exact .inl h
            · by_cases h' : tolower j.fieldName = b!"using"
              · exact .inr h'
              · exact absurd ⟨h, h'⟩ hf
      split at h1
      · unfold joinDirective at h1
        simp only [Res.bind_eq_ok, Res.map_eq_ok] at h1
        obtain ⟨rid, _, rs', ha, items, _, rfl⟩ := h1
        exact hs
      · cases h1

/-- What a step keeps. -/
def SpacedSt (s : St) : Prop :=
  Spaced s.rs (s.q.rel.id :: s.q.joined) ∧ ∀ j, s.q.join = some j → j.Placed

theorem SpacedSt.other {s : St} {q : Query} {c : Cache} (h : SpacedSt s) (h1 : q.rel = s.q.rel)
    (h3 : q.join = s.q.join) : SpacedSt { q := q, rs := s.rs, cache := c } := by
  unfold SpacedSt Query.joined at *
  simp only [h1, h3]
  exact h

theorem analyzeDirective_spaced {s s' : St} {h : FieldHdr} {t : Ty} {d : Bytes} (f : SpacedSt s)
    (e : analyzeDirective s h t d = .ok s') : SpacedSt s' := by
  unfold analyzeDirective at e
  split at e
  · simp only [analyzeAll, Res.bind_eq_ok, Res.map_eq_ok] at e
    obtain ⟨_, _, _, _, _, _, rfl⟩ := e; exact f.other rfl rfl
  · simp only [analyzeDefault, Res.bind_eq_ok, Res.map_eq_ok] at e
    obtain ⟨_, _, _, _, rfl⟩ := e; exact f.other rfl rfl
  · simp only [analyzeForce, Res.bind_eq_ok, Res.map_eq_ok] at e
    obtain ⟨_, _, _, _, _, _, rfl⟩ := e; exact f.other rfl rfl
  · simp only [analyzeOptional, Res.bind_eq_ok, Res.map_eq_ok] at e
    obtain ⟨_, _, _, _, _, _, rfl⟩ := e; exact f.other rfl rfl
  · simp only [analyzeReturn, Res.bind_eq_ok, Res.map_eq_ok] at e
    obtain ⟨_, _, _, _, _, _, _, _, rfl⟩ := e; exact f.other rfl rfl
  · simp only [analyzeLimit, Res.bind_eq_ok, Res.map_eq_ok] at e
    obtain ⟨_, _, _, _, _, _, rfl⟩ := e; exact f.other rfl rfl
  · simp only [analyzeOffset, Res.bind_eq_ok, Res.map_eq_ok] at e
    obtain ⟨_, _, _, _, _, _, rfl⟩ := e; exact f.other rfl rfl
  · simp only [analyzeOrderBy, Res.bind_eq_ok, Res.map_eq_ok] at e
    obtain ⟨_, _, _, _, _, _, rfl⟩ := e; exact f.other rfl rfl
  · simp only [analyzeOverride, Res.bind_eq_ok] at e
    obtain ⟨_, _, e⟩ := e
    split at e
    · cases e; exact f.other rfl rfl
    · split at e
      · cases e; exact f.other rfl rfl
      · simp at e
  · simp at e

theorem analyzeField_spaced {env : Env} {s s' : St} {h : FieldHdr} {t : Ty} (f : SpacedSt s)
    (e : analyzeField env s h t = .ok s') : SpacedSt s' := by
  unfold analyzeField at e
  split at e
  · simp only [analyzeWhere, Res.bind_eq_ok] at e
    obtain ⟨_, _, e⟩ := e
    split at e
    · simp at e
    · rw [Res.map_eq_ok] at e
      obtain ⟨_, _, rfl⟩ := e; exact f.other rfl rfl
  · simp only [analyzeJoin, Res.bind_eq_ok] at e
    obtain ⟨_, _, e⟩ := e
    split at e
    · simp at e
    · rw [Res.map_eq_ok] at e
      obtain ⟨p, hp, rfl⟩ := e
      have h0 : Spaced s.rs (s.q.rel.id :: JoinStruct.rels { fieldName := h.name }) := by
        refine ⟨by simp [JoinStruct.rels], ?_⟩
        intro r hr
        simp only [JoinStruct.rels, Option.toList_none, List.map_nil, List.append_nil, List.mem_singleton] at hr
        subst hr
        exact f.1.2 _ (List.mem_cons_self ..)
      exact ⟨joinFields_spaced hp h0, fun j e => by cases e; exact joinFields_placed hp (fun h => absurd rfl h)⟩
  · simp only [analyzeOnConflict, Res.bind_eq_ok] at e
    obtain ⟨_, _, e⟩ := e
    split at e
    · simp at e
    · simp only [Res.bind_eq_ok, Res.map_eq_ok] at e
      obtain ⟨oc, ho, _, _, rfl⟩ := e
      exact f.other rfl rfl
  · simp only [analyzeResult, Res.bind_eq_ok, Res.map_eq_ok] at e
    obtain ⟨_, _, p, hp, rfl⟩ := e
    exact f.other rfl rfl
  · simp only [analyzeLimit, Res.bind_eq_ok, Res.map_eq_ok] at e
    obtain ⟨_, _, _, _, _, _, rfl⟩ := e; exact f.other rfl rfl
  · simp only [analyzeOffset, Res.bind_eq_ok, Res.map_eq_ok] at e
    obtain ⟨_, _, _, _, _, _, rfl⟩ := e; exact f.other rfl rfl
  · simp only [analyzeRowsAffected, Res.bind_eq_ok, Res.map_eq_ok] at e
    obtain ⟨_, _, _, _, rfl⟩ := e; exact f.other rfl rfl
  · unfold analyzeTypedField at e
    rw [Res.bind_eq_ok] at e
    obtain ⟨_, _, e⟩ := e
    split at e
    · rw [Res.bind_eq_ok] at e
      obtain ⟨_, _, e⟩ := e
      split at e
      · simp only [analyzeFilterField, Res.map_eq_ok] at e
        obtain ⟨_, _, rfl⟩ := e; exact f.other rfl rfl
      split at e
      · simp only [analyzeErrorHandler, Res.map_eq_ok] at e
        obtain ⟨_, _, rfl⟩ := e; exact f.other rfl rfl
      split at e
      · simp only [analyzeErrorHandler, Res.map_eq_ok] at e
        obtain ⟨_, _, rfl⟩ := e; exact f.other rfl rfl
      split at e
      · simp only [analyzeContext, Res.map_eq_ok] at e
        obtain ⟨_, _, rfl⟩ := e; exact f.other rfl rfl
      · cases e; exact f
    · cases e; exact f

theorem queryFields_spaced {env : Env} {s s' : St} {fs : List Field} (f : SpacedSt s)
    (e : queryFields env s fs = .ok s') : SpacedSt s' := by
  induction fs generalizing s with
  | nil => rw [queryFields] at e; cases e; exact f
  | cons fd fs ih =>
    rw [queryFields, Res.bind_eq_ok] at e
    obtain ⟨s1, h1, e⟩ := e
    refine ih ?_ e
    unfold queryStep at h1
    split at h1
    · cases h1; exact f
    · rw [Res.bind_eq_ok] at h1
      obtain ⟨d, _, h1⟩ := h1
      split at h1
      · exact analyzeDirective_spaced f h1
      · exact analyzeField_spaced f h1

/-- What the first pass keeps. -/
def SpacedSt1 (s : St1) : Prop := ∀ r, s.rel = some r → (s.rs.get (relKey r.id)).isSome = true

theorem analyzeRelField_spaced {env : Env} {s s' : St1} {h : FieldHdr} {t : Ty}
    (e : analyzeRelField env s h t = .ok s') : SpacedSt1 s' := by
  unfold analyzeRelField at e
  simp only [Res.bind_eq_ok] at e
  obtain ⟨_, _, rid, hr, rs, ha, e⟩ := e
  have hk : (rs.get (relKey rid)).isSome = true := by
    rw [(addToRelSpace_key ha).2, get_cons_isSome]; exact .inl rfl
  have tk : ∀ k n, toKind s k { fieldName := n, id := rid } rs = .ok s' → SpacedSt1 s' := by
    intro k n e
    unfold toKind at e
    rw [Res.map_eq_ok] at e
    obtain ⟨_, _, rfl⟩ := e
    intro r e; cases e; exact hk
  split at e
  · exact tk _ _ e
  split at e
  · exact tk _ _ e
  split at e
  · exact tk _ _ e
  simp only [Res.bind_eq_ok] at e
  obtain ⟨d, _, e⟩ := e
  split at e
  · rw [Res.map_eq_ok] at e
    obtain ⟨_, _, rfl⟩ := e
    intro r e; cases e; exact hk
  · simp only [Res.bind_eq_ok, Res.map_eq_ok] at e
    obtain ⟨p, hp, _, _, rfl⟩ := e
    intro r e; cases e; exact hk

theorem relFieldsLoop_spaced {env : Env} {s s' : St1} {fs : List Field} (f : SpacedSt1 s)
    (e : relFieldsLoop env s fs = .ok s') : SpacedSt1 s' := by
  induction fs generalizing s with
  | nil => rw [relFieldsLoop] at e; cases e; exact f
  | cons fd fs ih =>
    rw [relFieldsLoop] at e
    split at e
    · rw [Res.bind_eq_ok] at e
      obtain ⟨s1, h1, e⟩ := e
      exact ih (analyzeRelField_spaced h1) e
    · exact ih f e

/-- The relations of an accepted query have different keys. -/
theorem analyzeQuery_spaced {env : Env} {cache : Cache} {n : Bytes} {fs : List Field} {s : St}
    (e : analyzeQuery env cache n fs = .ok s) : SpacedSt s := by
  obtain ⟨k, r, s1, h1, _, hr, h⟩ := analyzeQuery_split e
  have f := relFieldsLoop_spaced (by intro r hr; cases hr) h1
  refine queryFields_spaced (s := _) ?_ h
  refine ⟨⟨by simp [Query.joined], ?_⟩, by simp⟩
  intro x hx
  simp only [Query.joined, Option.map_none, Option.getD_none, List.mem_singleton] at hx
  subst hx
  exact f r hr

end Verif.Analysis
