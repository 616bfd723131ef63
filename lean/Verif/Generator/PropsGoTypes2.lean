import Verif.Generator.PropsGoTypes
import Verif.Generator.Pipeline

/- C108: the types of the relation fields of an accepted query. -/
namespace Verif.Generator.Scoped
open Verif.Analysis Verif.Postgres

/-- A field of the query struct with the name and a type that the records fit. -/
def Declared (F : List Analysis.Field) (n : Bytes) (rt : RelType) : Prop :=
  ∃ f ∈ F, f.1.name = n ∧ Fits1 f.2 rt

/-- What a step of the second pass keeps. -/
structure FitSt (K : Ty → Prop) (F : List Analysis.Field) (k : QKind) (r : RelField) (s : St) : Prop where
  kind : s.q.kind = k
  rel : s.q.rel = r
  result : ∀ x, s.q.result = some x → Declared F x.1 x.2
  cache : CacheFit K s.cache

theorem FitSt.other {K : Ty → Prop} {F : List Analysis.Field} {k : QKind} {r : RelField} {s : St} {q : Query}
    {rs : RelSpace} (h : FitSt K F k r s) (h0 : q.kind = s.q.kind) (h1 : q.rel = s.q.rel) (h2 : q.result = s.q.result) :
    FitSt K F k r { q := q, rs := rs, cache := s.cache } :=
  ⟨h0.trans h.kind, h1.trans h.rel, h2 ▸ h.result, h.cache⟩

theorem analyzeDirective_fit {K : Ty → Prop} {F : List Analysis.Field} {k : QKind} {r : RelField} {s s' : St}
    {h : FieldHdr} {t : Ty} {d : Bytes} (f : FitSt K F k r s) (e : analyzeDirective s h t d = .ok s') :
    FitSt K F k r s' := by
  unfold analyzeDirective at e
  split at e
  · simp only [analyzeAll, Res.bind_eq_ok, Res.map_eq_ok] at e
    obtain ⟨_, _, _, _, _, _, rfl⟩ := e; exact f.other rfl rfl rfl
  · simp only [analyzeDefault, Res.bind_eq_ok, Res.map_eq_ok] at e
    obtain ⟨_, _, _, _, rfl⟩ := e; exact f.other rfl rfl rfl
  · simp only [analyzeForce, Res.bind_eq_ok, Res.map_eq_ok] at e
    obtain ⟨_, _, _, _, _, _, rfl⟩ := e; exact f.other rfl rfl rfl
  · simp only [analyzeOptional, Res.bind_eq_ok, Res.map_eq_ok] at e
    obtain ⟨_, _, _, _, _, _, rfl⟩ := e; exact f.other rfl rfl rfl
  · simp only [analyzeReturn, Res.bind_eq_ok, Res.map_eq_ok] at e
    obtain ⟨_, _, _, _, _, _, _, _, rfl⟩ := e; exact f.other rfl rfl rfl
  · simp only [analyzeLimit, Res.bind_eq_ok, Res.map_eq_ok] at e
    obtain ⟨_, _, _, _, _, _, rfl⟩ := e; exact f.other rfl rfl rfl
  · simp only [analyzeOffset, Res.bind_eq_ok, Res.map_eq_ok] at e
    obtain ⟨_, _, _, _, _, _, rfl⟩ := e; exact f.other rfl rfl rfl
  · simp only [analyzeOrderBy, Res.bind_eq_ok, Res.map_eq_ok] at e
    obtain ⟨_, _, _, _, _, _, rfl⟩ := e; exact f.other rfl rfl rfl
  · simp only [analyzeOverride, Res.bind_eq_ok] at e
    obtain ⟨_, _, e⟩ := e
    split at e
    · cases e; exact f.other rfl rfl rfl
    · split at e
      · cases e; exact f.other rfl rfl rfl
      · simp at e
  · simp at e

theorem analyzeField_fit {K : Ty → Prop} (hK : Distinct K) {F : List Analysis.Field} (hF : ∀ f ∈ F, K f.2) {k : QKind}
    {r : RelField} {env : Env} {s s' : St} {h : FieldHdr} {t : Ty} (hm : (h, t) ∈ F) (f : FitSt K F k r s)
    (e : analyzeField env s h t = .ok s') : FitSt K F k r s' := by
  unfold analyzeField at e
  split at e
  · simp only [analyzeWhere, Res.bind_eq_ok] at e
    obtain ⟨_, _, e⟩ := e
    split at e
    · simp at e
    · rw [Res.map_eq_ok] at e
      obtain ⟨_, _, rfl⟩ := e; exact f.other rfl rfl rfl
  · simp only [analyzeJoin, Res.bind_eq_ok] at e
    obtain ⟨_, _, e⟩ := e
    split at e
    · simp at e
    · rw [Res.map_eq_ok] at e
      obtain ⟨p, hp, rfl⟩ := e
      exact f.other rfl rfl rfl
  · simp only [analyzeOnConflict, Res.bind_eq_ok] at e
    obtain ⟨_, _, e⟩ := e
    split at e
    · simp at e
    · simp only [Res.bind_eq_ok, Res.map_eq_ok] at e
      obtain ⟨oc, ho, _, _, rfl⟩ := e
      exact f.other rfl rfl rfl
  · simp only [analyzeResult, Res.bind_eq_ok, Res.map_eq_ok] at e
    obtain ⟨_, _, p, hp, rfl⟩ := e
    have := analyzeRelType_fit hK (hF _ hm) f.cache hp
    exact ⟨f.kind, f.rel, fun x e => by cases e; exact ⟨_, hm, rfl, this.1⟩, this.2⟩
  · simp only [analyzeLimit, Res.bind_eq_ok, Res.map_eq_ok] at e
    obtain ⟨_, _, _, _, _, _, rfl⟩ := e; exact f.other rfl rfl rfl
  · simp only [analyzeOffset, Res.bind_eq_ok, Res.map_eq_ok] at e
    obtain ⟨_, _, _, _, _, _, rfl⟩ := e; exact f.other rfl rfl rfl
  · simp only [analyzeRowsAffected, Res.bind_eq_ok, Res.map_eq_ok] at e
    obtain ⟨_, _, _, _, rfl⟩ := e; exact f.other rfl rfl rfl
  · unfold analyzeTypedField at e
    rw [Res.bind_eq_ok] at e
    obtain ⟨_, _, e⟩ := e
    split at e
    · rw [Res.bind_eq_ok] at e
      obtain ⟨_, _, e⟩ := e
      split at e
      · simp only [analyzeFilterField, Res.map_eq_ok] at e
        obtain ⟨_, _, rfl⟩ := e; exact f.other rfl rfl rfl
      split at e
      · simp only [analyzeErrorHandler, Res.map_eq_ok] at e
        obtain ⟨_, _, rfl⟩ := e; exact f.other rfl rfl rfl
      split at e
      · simp only [analyzeErrorHandler, Res.map_eq_ok] at e
        obtain ⟨_, _, rfl⟩ := e; exact f.other rfl rfl rfl
      split at e
      · simp only [analyzeContext, Res.map_eq_ok] at e
        obtain ⟨_, _, rfl⟩ := e; exact f.other rfl rfl rfl
      · cases e; exact f
    · cases e; exact f

theorem queryFields_fit {K : Ty → Prop} (hK : Distinct K) {F : List Analysis.Field} (hF : ∀ f ∈ F, K f.2) {k : QKind}
    {r : RelField} {env : Env} {s s' : St} {fs : List Analysis.Field} (hs : ∀ f ∈ fs, f ∈ F) (f : FitSt K F k r s)
    (e : queryFields env s fs = .ok s') : FitSt K F k r s' := by
  induction fs generalizing s with
  | nil => rw [queryFields] at e; cases e; exact f
  | cons fd fs ih =>
    rw [queryFields, Res.bind_eq_ok] at e
    obtain ⟨s1, h1, e⟩ := e
    refine ih (fun x hx => hs x (List.mem_cons_of_mem _ hx)) ?_ e
    unfold queryStep at h1
    split at h1
    · cases h1; exact f
    · rw [Res.bind_eq_ok] at h1
      obtain ⟨d, _, h1⟩ := h1
      split at h1
      · exact analyzeDirective_fit f h1
      · exact analyzeField_fit hK hF (hs fd (List.mem_cons_self ..)) f h1

/-- A query without records: a count, a test for existence, or a deletion with a directive. -/
def Recordless (k : QKind) (r : RelField) : Prop :=
  k = .selectCount ∨ k = .selectExists ∨ k = .selectNotExists ∨ r.isDirective = true

structure FitSt1 (K : Ty → Prop) (F : List Analysis.Field) (s : St1) : Prop where
  rel : ∀ r, s.rel = some r → Recordless s.kind r ∨ Declared F r.fieldName r.type
  cache : CacheFit K s.cache

theorem toKind_fit {K : Ty → Prop} {F : List Analysis.Field} {s s' : St1} {k : QKind} {r : RelField} {rs : RelSpace}
    (h : FitSt1 K F s) (hk : k = .selectCount ∨ k = .selectExists ∨ k = .selectNotExists)
    (e : toKind s k r rs = .ok s') : FitSt1 K F s' := by
  unfold toKind at e
  rw [Res.map_eq_ok] at e
  obtain ⟨_, _, rfl⟩ := e
  refine ⟨fun r' _ => .inl ?_, h.cache⟩
  rcases hk with h | h | h
  · exact .inl h
  · exact .inr (.inl h)
  · exact .inr (.inr (.inl h))

theorem analyzeRelField_fit {K : Ty → Prop} (hK : Distinct K) {F : List Analysis.Field} (hF : ∀ f ∈ F, K f.2)
    {env : Env} {s s' : St1} {h : FieldHdr} {t : Ty} (hm : (h, t) ∈ F) (f : FitSt1 K F s)
    (e : analyzeRelField env s h t = .ok s') : FitSt1 K F s' := by
  unfold analyzeRelField at e
  simp only [Res.bind_eq_ok] at e
  obtain ⟨_, _, rid, hr, rs, _, e⟩ := e
  split at e
  · exact toKind_fit f (.inl rfl) e
  split at e
  · exact toKind_fit f (.inr (.inl rfl)) e
  split at e
  · exact toKind_fit f (.inr (.inr rfl)) e
  simp only [Res.bind_eq_ok] at e
  obtain ⟨d, _, e⟩ := e
  split at e
  · rw [Res.map_eq_ok] at e
    obtain ⟨_, _, rfl⟩ := e
    exact ⟨fun r' e => by cases e; exact .inl (.inr (.inr (.inr rfl))), f.cache⟩
  · simp only [Res.bind_eq_ok, Res.map_eq_ok] at e
    obtain ⟨p, hp, _, _, rfl⟩ := e
    have := analyzeRelType_fit hK (hF _ hm) f.cache hp
    exact ⟨fun r' e => by cases e; exact .inr ⟨_, hm, rfl, this.1⟩, this.2⟩

theorem relFieldsLoop_fit {K : Ty → Prop} (hK : Distinct K) {F : List Analysis.Field} (hF : ∀ f ∈ F, K f.2)
    {env : Env} {s s' : St1} {fs : List Analysis.Field} (hs : ∀ f ∈ fs, f ∈ F) (f : FitSt1 K F s)
    (e : relFieldsLoop env s fs = .ok s') : FitSt1 K F s' := by
  induction fs generalizing s with
  | nil => rw [relFieldsLoop] at e; cases e; exact f
  | cons fd fs ih =>
    have hs' : ∀ x ∈ fs, x ∈ F := fun x hx => hs x (List.mem_cons_of_mem _ hx)
    rw [relFieldsLoop] at e
    split at e
    · rw [Res.bind_eq_ok] at e
      obtain ⟨s1, h1, e⟩ := e
      exact ih hs' (analyzeRelField_fit hK hF (hs fd (List.mem_cons_self ..)) f h1) e
    · exact ih hs' f e

/-- **C108** What the analysis knows about the relation field and the result field of a query is right, whatever was
analysed before: the field is one of the struct, and its records are the structs that the analysis says, unless the
query has no records.  `K` are the types of the fields of the run; types of the same text are the same. -/
theorem C108_analysed {K : Ty → Prop} (hK : Distinct K) {env : Env} {cache : Cache} {n : Bytes} {fs : List Analysis.Field}
    {s : St} (hF : ∀ f ∈ fs, K f.2) (hc : CacheFit K cache) (e : analyzeQuery env cache n fs = .ok s) :
    (Recordless s.q.kind s.q.rel ∨ Declared fs s.q.rel.fieldName s.q.rel.type) ∧
    (∀ x, s.q.result = some x → Declared fs x.1 x.2) ∧ CacheFit K s.cache := by
  obtain ⟨k, r, s1, h1, _, hr, h⟩ := analyzeQuery_split e
  have f := relFieldsLoop_fit hK hF (fun _ h => h) ⟨by simp, hc⟩ h1
  have g := queryFields_fit hK hF (fun _ h => h) (k := s1.kind) (r := r) ⟨rfl, rfl, by simp, f.cache⟩ h
  refine ⟨?_, g.result, g.cache⟩
  rw [g.kind, g.rel]
  exact f.rel r hr

end Verif.Generator.Scoped
