import Verif.Generator.PropsGoQuery4

/- C109: the arguments of Scan. -/
namespace Verif.Generator.Scoped
open Verif.Analysis Verif.Postgres

/-- **C109** What is given to Scan are addresses of fields that can be selected from the variable that is scanned into,
or functions of package pgsql of such addresses; the variable has the type that the statements before give it. -/
theorem C109_args {K : Ty → Prop} (hK : Distinct K) {env : Env} {cache : Cache} {n : Bytes} {fs : List Analysis.Field}
    {s : St} (hF : ∀ f ∈ fs, K f.2) (hc : CacheFit K cache) (e : analyzeQuery env cache n fs = .ok s) {cat : Catalog}
    {t : TargetInfo} (hb : Built cat s.q t) (hr : s.q.result = none → ¬ Recordless s.q.kind s.q.rel)
    (hs : isSelectCountOrExists s.q = false) (ha : (outputType s.q).isArray = false) :
    ∃ f ∈ fs, f.1.name = outputName s.q ∧ ∃ b g, TypedOutput s.q t f.2 b g ∧ ∀ x ∈ outputArgs s.q t,
      ∃ y T, Reach (outputVar s.q) (outTy (outputType s.q) f.2 b) y T ∧ (x = .addr y ∨ ∃ v, x = .conv v (.addr y)) := by
  obtain ⟨h1, h2, _⟩ := C108_analysed hK hF hc e
  have key : Declared fs (outputName s.q) (outputType s.q) := by
    unfold outputName outputType
    cases hq : s.q.result with
    | none => exact h1.resolve_left (hr hq)
    | some x => exact h2 x hq
  obtain ⟨f, hf, hn, b, g, h⟩ := key
  have ht : TypedOutput s.q t f.2 b g := typed_of_fit h ha
  refine ⟨f, hf, hn, b, g, ht, ?_⟩
  intro x hx
  unfold outputArgs at hx
  split at hx
  · cases hx
  · rw [hs] at hx
    simp only [Bool.false_eq_true, if_false, List.mem_map] at hx
    obtain ⟨r, hr, rfl⟩ := hx
    obtain ⟨T, hT⟩ := h.fields _ (reads_output hb r hr)
    refine ⟨_, T, hT.reach .here (structOf_selects ht.fields), ?_⟩
    unfold scanArg addConv
    split
    · exact .inr ⟨_, rfl⟩
    · exact .inl rfl

/-- The relation field of a count is an integer field, that of a test for existence a boolean field. -/
structure CountSt (F : List Analysis.Field) (k : QKind) (r : Option RelField) : Prop where
  count : k = .selectCount → ∃ x, r = some x ∧ Has F x.fieldName fun t => isIntegerType t = true
  test : k = .selectExists ∨ k = .selectNotExists → ∃ x, r = some x ∧ Has F x.fieldName fun t => isBoolType t = true

theorem analyzeRelField_count {F : List Analysis.Field} {env : Env} {s s' : St1} {h : FieldHdr} {t : Ty}
    (hm : (h, t) ∈ F) (f : CountSt F s.kind s.rel) (e : analyzeRelField env s h t = .ok s') :
    CountSt F s'.kind s'.rel := by
  unfold analyzeRelField at e
  simp only [Res.bind_eq_ok] at e
  obtain ⟨_, h0, rid, hr, rs, _, e⟩ := e
  have hn : s.rel = none := by simpa using failIf_ok h0
  have other : ∀ r, CountSt F s.kind r := by
    intro r
    constructor
    · intro hk
      obtain ⟨x, hx, _⟩ := f.count hk
      rw [hn] at hx; cases hx
    · intro hk
      obtain ⟨x, hx, _⟩ := f.test hk
      rw [hn] at hx; cases hx
  have named : ∀ w, lower h.name = w → lower b!"_" ≠ w → h.name ≠ b!"_" := by
    intro w hw hne hx
    rw [hx] at hw
    exact hne hw
  split at e
  · next hc =>
    simp only [toKind, Res.map_eq_ok] at e
    obtain ⟨_, _, rfl⟩ := e
    exact ⟨fun _ => ⟨_, rfl, _, hm, rfl, named _ hc.1 (by decide), hc.2⟩, by simp⟩
  split at e
  · next hc =>
    simp only [toKind, Res.map_eq_ok] at e
    obtain ⟨_, _, rfl⟩ := e
    exact ⟨by simp, fun _ => ⟨_, rfl, _, hm, rfl, named _ hc.1 (by decide), hc.2⟩⟩
  split at e
  · next hc =>
    simp only [toKind, Res.map_eq_ok] at e
    obtain ⟨_, _, rfl⟩ := e
    exact ⟨by simp, fun _ => ⟨_, rfl, _, hm, rfl, named _ hc.1 (by decide), hc.2⟩⟩
  simp only [Res.bind_eq_ok] at e
  obtain ⟨d, _, e⟩ := e
  split at e
  · rw [Res.map_eq_ok] at e
    obtain ⟨_, _, rfl⟩ := e
    exact other _
  · simp only [Res.bind_eq_ok, Res.map_eq_ok] at e
    obtain ⟨p, hp, _, _, rfl⟩ := e
    exact other _

theorem relFieldsLoop_count {F : List Analysis.Field} {env : Env} {s s' : St1} {fs : List Analysis.Field}
    (hs : ∀ f ∈ fs, f ∈ F) (f : CountSt F s.kind s.rel) (e : relFieldsLoop env s fs = .ok s') :
    CountSt F s'.kind s'.rel := by
  induction fs generalizing s with
  | nil => rw [relFieldsLoop] at e; cases e; exact f
  | cons fd fs ih =>
    have hs' : ∀ x ∈ fs, x ∈ F := fun x hx => hs x (List.mem_cons_of_mem _ hx)
    rw [relFieldsLoop] at e
    split at e
    · rw [Res.bind_eq_ok] at e
      obtain ⟨s1, h1, e⟩ := e
      exact ih hs' (analyzeRelField_count (hs fd (List.mem_cons_self ..)) f h1) e
    · exact ih hs' f e

/-- **C109** A count is scanned into an integer field of the query struct, the result of a test for existence into a
boolean field. -/
theorem C109_count {env : Env} {cache : Cache} {n : Bytes} {fs : List Analysis.Field} {s : St}
    (e : analyzeQuery env cache n fs = .ok s) (hs : isSelectCountOrExists s.q = true) (t : TargetInfo) :
    ∀ x ∈ outputArgs s.q t, ∃ y T, x = .addr y ∧ HasTy fs y T ∧
      (s.q.kind = .selectCount → isIntegerType T = true) ∧ (s.q.kind ≠ .selectCount → isBoolType T = true) := by
  obtain ⟨k, r, s1, h1, hk, hr, h⟩ := analyzeQuery_split e
  have hsp := queryFields_spec h
  have hkind : s.q.kind = s1.kind := hsp.1
  have hrel : s.q.rel = r := hsp.2.1
  have hkk : k ≠ .selectCount ∧ k ≠ .selectExists ∧ k ≠ .selectNotExists := by
    unfold queryKind at hk
    dsimp only at hk
    repeat' split at hk
    all_goals first
      | (cases hk; done)
      | (cases hk; decide)
  have hc := relFieldsLoop_count (F := fs) (fun _ h => h)
    ⟨fun h => absurd h hkk.1, fun h => (h.elim hkk.2.1 hkk.2.2).elim⟩ h1
  have hres : s.q.result = none := by
    have h0 := (C33_results env cache n fs s e).2.2 (by
      rw [isSelectCountOrExists, Bool.and_eq_true] at hs; exact hs.1)
    cases hq : s.q.result with
    | none => rfl
    | some x => simp [Query.resultTargets, hq, b2n] at h0
  have ho : outputRoot s.q = .sel (.ident b!"q") r.fieldName := by
    rw [outputRoot, outputName, hres, hrel]; rfl
  have key : Has fs r.fieldName fun T =>
      (s.q.kind = .selectCount → isIntegerType T = true) ∧ (s.q.kind ≠ .selectCount → isBoolType T = true) := by
    rw [hkind]
    rw [isSelectCountOrExists, hkind] at hs
    by_cases hx : s1.kind = .selectCount
    · obtain ⟨x, hx', f, hf, a1, a2, a3⟩ := hc.count hx
      rw [hr] at hx'
      cases hx'
      exact ⟨f, hf, a1, a2, fun _ => a3, fun h => absurd hx h⟩
    · have : s1.kind = .selectExists ∨ s1.kind = .selectNotExists := by
        revert hs hx
        cases s1.kind <;> decide
      obtain ⟨x, hx', f, hf, a1, a2, a3⟩ := hc.test this
      rw [hr] at hx'
      cases hx'
      exact ⟨f, hf, a1, a2, fun h => absurd h hx, fun _ => a3⟩
  intro x hx
  unfold outputArgs at hx
  split at hx
  · cases hx
  · simp only [hs, if_true, List.mem_singleton] at hx
    obtain ⟨T, h1, h2⟩ := key.ty
    exact ⟨_, T, hx, ho ▸ h1, h2⟩

/-- **C109** A count: its result goes into the field. -/
theorem C109_example_count : ∃ q t c,
    pipeline env0 shopCat b!"SelectUsers"
      [({ name := b!"Count", tag := [(b!"rel", [b!"users:u"])] }, Analysis.intTy)] = some (q, t, some c) ∧
    q.kind = .selectCount ∧ isSelectCountOrExists q = true ∧ outputArgs q t = [.addr (path [b!"Count"])] := by
  obtain ⟨q, t, c, h1, h2⟩ := query_of (env := env0) (cat := shopCat) (n := b!"SelectUsers")
    (fs := [({ name := b!"Count", tag := [(b!"rel", [b!"users:u"])] }, Analysis.intTy)])
    (P := fun q t _ => decide (q.kind = .selectCount ∧ isSelectCountOrExists q = true ∧
      outputArgs q t = [.addr (path [b!"Count"])])) (by decide +kernel)
  exact ⟨q, t, c, h1, of_decide_eq_true h2⟩

end Verif.Generator.Scoped
