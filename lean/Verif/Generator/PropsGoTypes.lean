import Verif.Generator.PropsGoFields

/- C108: what the analysis knows about the type of a record. -/
namespace Verif.Generator.Scoped
open Verif.Analysis Verif.Postgres

theorem namedStruct_eq {p : Ty} {b : Bool} {i : NamedInfo} {fs : Fields} (h : namedStruct p = some (b, i, fs)) :
    p = if b then .ptr (.named i (.struct fs)) else .named i (.struct fs) := by
  unfold namedStruct at h
  split at h <;> cases h <;> rfl

theorem iterFunc_takes {f : Ty} {b : Bool} {i : NamedInfo} {fs : Fields} (h : iterFunc f = some (b, i, fs)) :
    Takes f (if b then .ptr (.named i (.struct fs)) else .named i (.struct fs)) := by
  unfold iterFunc at h
  split at h
  · next hd p =>
    split at h
    · next hc => exact ⟨hd, p, rfl, hc.1, hc.2.1, hc.2.2, .inl (namedStruct_eq h).symm⟩
    · cases h
  · cases h

/-- What `relShape` says about a type. -/
structure Shape (t : Ty) (rt : RelType) (n : Option NamedInfo) (u b : Ty) : Prop where
  base : (∃ i, n = some i ∧ b = .named i u) ∨ (n = none ∧ b = u ∧ isNamed u = false)
  under : under b = u
  plain : isNamed b = false → rt.isSlice = false ∧ rt.isIter = false ∧ rt.isArray = false ∧ rt.isPointer = false
  iter : rt.isIter = true → rt.isSlice = false ∧ rt.isArray = false ∧ Passes t rt.iterMethod (recordTy rt b)
  slice : rt.isSlice = true → Scoped.under t = .slice (recordTy rt b)
  array : rt.isArray = true → Scoped.under t = .array rt.arrayLen (recordTy rt b)
  pointer : rt.isIter = false → rt.isSlice = false → rt.isArray = false → rt.isPointer = true → Scoped.under t = .ptr b
  value : rt.isIter = false → rt.isSlice = false → rt.isArray = false → rt.isPointer = false → t = b
  after : rt.isAfterScanner = false

theorem split_under (t : Ty) : (splitNamed t).2 = under t := by cases t <;> rfl

theorem stripSeq_cases (u : Ty) :
    (∃ e, u = .slice (.ptr e) ∧ stripSeq u = ({ isSlice := true, isPointer := true }, e)) ∨
    (∃ e, u = .slice e ∧ stripSeq u = ({ isSlice := true }, e)) ∨
    (∃ n e, u = .array n (.ptr e) ∧ stripSeq u = ({ isArray := true, arrayLen := n, isPointer := true }, e)) ∨
    (∃ n e, u = .array n e ∧ stripSeq u = ({ isArray := true, arrayLen := n }, e)) ∨
    (∃ e, u = .ptr e ∧ stripSeq u = ({ isPointer := true }, e)) ∨
    stripSeq u = ({}, u) := by
  cases u with
  | slice e => cases e <;> simp [stripSeq, stripPtr]
  | array n e => cases e <;> simp [stripSeq, stripPtr]
  | ptr e => simp [stripSeq, stripPtr]
  | _ => simp [stripSeq, stripPtr]

theorem relShape_shape {env : Env} {t : Ty} {rt : RelType} {n : Option NamedInfo} {u : Ty} {fs : Fields}
    (hu : u = .struct fs) (h : relShape env t = .ok (rt, n, u)) : ∃ b, Shape t rt n u b := by
  unfold relShape at h
  split at h
  · next m hd f hs =>
    have ht : under t = .iface hd f := by rw [← split_under, hs]
    rw [Res.bind_eq_ok] at h
    obtain ⟨o, ho, h⟩ := h
    split at h
    · cases h
    · next p i gs =>
      cases h
      unfold iterIface at ho
      split at ho
      · cases ho
      · next hm =>
        rw [Res.map_eq_ok] at ho
        obtain ⟨acc, _, ho⟩ := ho
        split at ho
        · have hk := iterFunc_takes ho
          refine ⟨.named i (.struct gs), .inl ⟨i, rfl, rfl⟩, rfl, by simp [isNamed], ?_, by simp, by simp, by simp, by simp,
            rfl⟩
          intro _
          exact ⟨rfl, rfl, .inr ⟨hd, f, ht, by simpa using hm, rfl, hk⟩⟩
        · cases ho
  · next m hd p hs =>
    have ht : under t = .func hd p := by rw [← split_under, hs]
    split at h
    · cases h
    · next b i gs hi =>
      cases h
      have hk := iterFunc_takes hi
      refine ⟨.named i (.struct gs), .inl ⟨i, rfl, rfl⟩, rfl, by simp [isNamed], ?_, by simp, by simp, by simp, by simp, rfl⟩
      intro _
      exact ⟨rfl, rfl, .inl ⟨rfl, ht ▸ hk⟩⟩
  · next m v _ _ hs =>
    have ht : under t = v := by rw [← split_under, hs]
    dsimp only at h
    rcases stripSeq_cases v with ⟨e, rfl, hc⟩ | ⟨e, rfl, hc⟩ | ⟨k, e, rfl, hc⟩ | ⟨k, e, rfl, hc⟩ | ⟨e, rfl, hc⟩ | hc <;>
      rw [hc] at h <;> simp only [Bool.true_or, Bool.or_true, Bool.or_self, Bool.false_eq_true, if_true, if_false] at h
    case inr.inr.inr.inr.inr =>
      cases h
      refine ⟨t, ?_, ht, by simp, by simp, by simp, by simp, by simp, by simp, rfl⟩
      cases t with
      | named i w => cases hs; exact .inl ⟨i, rfl, rfl⟩
      | _ => cases hs; exact .inr ⟨rfl, rfl, rfl⟩
    all_goals
      split at h
      · cases h
        exact ⟨_, .inl ⟨_, rfl, rfl⟩, rfl, by simp [isNamed], by simp, by simp [ht, recordTy], by simp [ht, recordTy],
          by simp [ht], by simp, rfl⟩
      · cases h

/-- What is found out without the cache fits. -/
theorem fresh_fit {env : Env} {rs : RelSpace} {t : Ty} {s : RelType × Option NamedInfo × Ty} {rt rt' : RelType}
    (h1 : relShape env t = .ok s) (h2 : relBase env s.1 s.2.1 = .ok rt) (h3 : relFields env rs rt s.2.2 = .ok rt') :
    ∃ b fs, Fit t rt' b fs := by
  obtain ⟨rt0, n, u⟩ := s
  unfold relFields at h3
  split at h3
  · next fs hu =>
    rw [Res.map_eq_ok] at h3
    obtain ⟨l, hl, rfl⟩ := h3
    have hfs : ∀ f ∈ l, ∃ T, Leads fs f.selector f.name T := by
      intro f hf
      obtain ⟨s, T, e1, e2⟩ := fieldsOf_finds _ _ _ _ _ _ _ hl f hf
      exact ⟨T, by rw [e1]; exact e2⟩
    obtain ⟨b, sh⟩ := relShape_shape hu h1
    refine ⟨b, fs, ?_⟩
    have hun : under b = .struct fs := sh.under.trans hu
    dsimp only at h2
    rcases sh.base with ⟨i, rfl, rfl⟩ | ⟨rfl, rfl, hn⟩
    · simp only [relBase] at h2
      cases hp : i.pkg with
      | none => rw [hp] at h2; cases h2
      | some p =>
        rw [hp] at h2
        cases h2
        exact ⟨hun, fun _ => ⟨i, p, u, rfl, hp, rfl, rfl⟩, fun _ => rfl, fun h => by simp [isNamed] at h, sh.iter, sh.slice,
          sh.array, sh.pointer, sh.value, hfs⟩
    · cases h2
      refine ⟨hun, fun h => ?_, fun h => ?_, sh.plain, sh.iter, sh.slice, sh.array, sh.pointer, sh.value, hfs⟩
      · exact absurd (hn.symm.trans h) (by simp)
      · exact absurd (sh.after.symm.trans h) (by simp)
  · cases h3

/-! ### The cache -/

/-- Types with the same text are the same.  `K` are the types of the fields of a run. -/
def Distinct (K : Ty → Prop) : Prop := ∀ t t', K t → K t' → cacheKey t ≠ none → cacheKey t = cacheKey t' → t = t'

def Fits1 (t : Ty) (rt : RelType) : Prop := ∃ b fs, Fit t rt b fs

def CacheFit (K : Ty → Prop) (c : Cache) : Prop := ∀ k rt, c.lookup k = some rt → ∃ t, K t ∧ cacheKey t = some k ∧ Fits1 t rt

theorem cacheFit_nil (K : Ty → Prop) : CacheFit K [] := by intro k t h; simp at h

theorem analyzeRelType_fit {K : Ty → Prop} (hK : Distinct K) {env : Env} {rs : RelSpace} {c : Cache} {t : Ty}
    {p : RelType × Cache} (ht : K t) (hc : CacheFit K c) (h : analyzeRelType env rs c t = .ok p) :
    Fits1 t p.1 ∧ CacheFit K p.2 := by
  unfold analyzeRelType at h
  split at h
  · next rt hl =>
    cases h
    rw [Option.bind_eq_some_iff] at hl
    obtain ⟨k, hk, hl⟩ := hl
    obtain ⟨t', h1, h2, h3⟩ := hc _ _ hl
    have : t = t' := hK t t' ht h1 (by rw [hk]; simp) (by rw [hk, h2])
    exact ⟨this ▸ h3, hc⟩
  · simp only [Res.bind_eq_ok, Res.map_eq_ok] at h
    obtain ⟨s, h1, rt, h2, rt', h3, rfl⟩ := h
    have hf : Fits1 t rt' := fresh_fit h1 h2 h3
    refine ⟨hf, ?_⟩
    unfold Analysis.store
    split
    · next k _ hk _ =>
      intro k' t' hl
      rw [List.lookup_cons] at hl
      split at hl
      · next e =>
        cases hl
        exact ⟨t, ht, by rw [hk, beq_iff_eq.1 e], hf⟩
      · exact hc _ _ hl
    · exact hc

end Verif.Generator.Scoped
