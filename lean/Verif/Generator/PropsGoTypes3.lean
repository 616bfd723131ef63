import Verif.Generator.PropsGoTypes2
import Verif.Generator.PropsQuals2
import Verif.Generator.Errors

/- C108: the statements about records are well typed. -/
namespace Verif.Generator.Scoped
open Verif.Analysis Verif.Postgres

/-- The statements of the method for the output field of type `T`, whose records are structs `b`, are well typed. -/
structure TypedOutput (q : Query) (t : TargetInfo) (T b : Ty) (fs : Fields) : Prop where
  /-- `q.F = new(B)` -/
  newRoot : rootInit q t = .newRoot → Names (outputType q).base b ∧ Assignable (.ptr b) T
  /-- `v := new(B)`: `v` is what is scanned into -/
  newVar : rootInit q t = .newVar → Names (outputType q).base b ∧ outTy (outputType q) T b = .ptr b
  /-- `var v B` -/
  declVar : rootInit q t = .declVar → Names (outputType q).base b ∧ outTy (outputType q) T b = b
  /-- `q.F[i]` -/
  index : outputVar q = .index (outputRoot q) (.ident b!"i") → under T = .slice (outTy (outputType q) T b)
  /-- `q.F` -/
  root : outputVar q = outputRoot q → outTy (outputType q) T b = T
  /-- `q.F = append(q.F, v)` -/
  append : hasOutput q t = true → keepOf q t = .append → under T = .slice (outTy (outputType q) T b)
  /-- `q.F(v)` or `q.F.M(v)` -/
  visit : keepOf q t = .iterate → Passes T (outputType q).iterMethod (outTy (outputType q) T b)
  /-- the fields are those of what is scanned into -/
  fields : Selects (outTy (outputType q) T b) fs
  /-- `v.AfterScan()`, unless the field is of a named pointer type -/
  afterScan : afterScans q t = true →
    Calls (outTy (outputType q) T b) b ∨ (isNamed T = true ∧ outTy (outputType q) T b = T ∧ under T = .ptr b)

theorem selects_record {rt : RelType} {b : Ty} {fs : Fields} (h : under b = .struct fs) : Selects (recordTy rt b) fs := by
  unfold recordTy
  split
  · exact .inr ⟨b, rfl, h⟩
  · exact .inl h

theorem isNamed_of {t : RelType} {T b : Ty} {fs : Fields} (h : Fit T t b fs)
    (hp : t.isSlice = true ∨ t.isIter = true ∨ t.isPointer = true) : isNamed b = true := by
  cases hb : isNamed b with
  | true => rfl
  | false =>
    obtain ⟨h1, h2, _, h4⟩ := h.plain hb
    rcases hp with hp | hp | hp
    · rw [h1] at hp; cases hp
    · rw [h2] at hp; cases hp
    · rw [h4] at hp; cases hp

theorem rows_notSingle {q : Query} (h : callOf q = .rows) : isSingle (outputType q) = false := by
  unfold callOf at h
  split at h
  · cases h
  split at h
  · cases h
  next h1 h2 =>
  simp only [isWithoutOutput, isSingleOutput, Bool.and_eq_true, Bool.not_eq_true', Bool.or_eq_true, not_or, not_and,
    Bool.not_eq_true] at h1 h2
  unfold outputType
  cases hr : q.result with
  | some r => have := h2.1.2; rw [hr] at this; simpa using this
  | none =>
    simp only
    by_cases hs : q.kind.isSelect = true
    · exact h2.1.1 hs
    · cases hq : q.ret with
      | some x => exact h2.2 (by rw [hq]; rfl)
      | none =>
        have := h1 ⟨by rw [hr]; rfl, by rw [hq]; rfl⟩
        simp at hs this
        rw [hs] at this; cases this

theorem typed_of_fit {q : Query} {t : TargetInfo} {T b : Ty} {fs : Fields} (h : Fit T (outputType q) b fs)
    (ha : (outputType q).isArray = false) : TypedOutput q t T b fs := by
  have hi : (outputType q).isIter = true → (outputType q).isSlice = false := fun h1 => (h.iter h1).1
  refine ⟨?_, ?_, ?_, ?_, ?_, ?_, ?_, ?_, ?_⟩
  · intro hr
    have hc : (outputType q).isSlice = false ∧ (outputType q).isIter = false ∧ (outputType q).isPointer = true := by
      unfold rootInit at hr
      grind
    have hp := h.pointer hc.2.1 hc.1 ha hc.2.2
    exact ⟨h.named (isNamed_of h (.inr (.inr hc.2.2))), .inr ⟨hp.symm, .inl rfl⟩⟩
  · intro hr
    have hc : ((outputType q).isSlice = true ∨ (outputType q).isIter = true) ∧ (outputType q).isPointer = true := by
      unfold rootInit at hr
      grind
    refine ⟨h.named (isNamed_of h (.inr (.inr hc.2))), ?_⟩
    rw [outTy, if_pos (by simpa using hc.1), recordTy, if_pos hc.2]
  · intro hr
    have hc : ((outputType q).isSlice = true ∨ (outputType q).isIter = true) ∧ (outputType q).isPointer = false := by
      unfold rootInit at hr
      grind
    refine ⟨h.named (isNamed_of h (by rcases hc.1 with h | h; exact .inl h; exact .inr (.inl h))), ?_⟩
    rw [outTy, if_pos (by simpa using hc.1), recordTy, if_neg (by simp [hc.2])]
  · intro hv
    have hs : (outputType q).isSlice = true := by
      unfold outputVar outputRoot at hv
      grind
    rw [outTy, if_pos (by simp [hs])]
    exact h.slice hs
  · intro hv
    have hs : ¬ ((outputType q).isSlice || (outputType q).isIter) = true := by
      intro hs
      unfold outputVar outputRoot at hv
      grind
    rw [outTy, if_neg hs]
  · intro ho hk
    have hc : callOf q = .rows ∧ (outputType q).isIter = false := by
      unfold keepOf at hk
      grind
    have hn := rows_notSingle hc.1
    have hs : (outputType q).isSlice = true := by
      simpa [isSingle, ha, hc.2] using hn
    rw [outTy, if_pos (by simp [hs])]
    exact h.slice hs
  · intro hk
    have hc : (outputType q).isIter = true := by
      unfold keepOf at hk
      grind
    rw [outTy, if_pos (by simp [hc])]
    exact (h.iter hc).2.2
  · unfold outTy
    split
    · exact selects_record h.struct
    · next hs =>
      simp only [Bool.or_eq_true, not_or, Bool.not_eq_true] at hs
      cases hp : (outputType q).isPointer with
      | true => exact .inr ⟨b, h.pointer hs.2 hs.1 ha hp, h.struct⟩
      | false => rw [h.value hs.2 hs.1 ha hp]; exact .inl h.struct
  · intro hf
    have hn := h.after (by simp only [afterScans, Bool.and_eq_true] at hf; exact hf.2)
    unfold outTy
    split
    · left
      unfold recordTy
      split
      · exact ⟨hn, .inr rfl⟩
      · exact ⟨hn, .inl rfl⟩
    · next hs =>
      simp only [Bool.or_eq_true, not_or, Bool.not_eq_true] at hs
      cases hp : (outputType q).isPointer with
      | true =>
        have hu := h.pointer hs.2 hs.1 ha hp
        cases hT : isNamed T with
        | true => exact .inr ⟨rfl, rfl, hu⟩
        | false =>
          left
          have : T = .ptr b := by
            cases T with
            | named i u => cases hT
            | _ => exact hu
          exact ⟨hn, .inr this⟩
      | false => exact .inl ⟨hn, .inl (h.value hs.2 hs.1 ha hp)⟩

/-- **C108** The output field of an accepted query is a field of the struct, and the statements of the method that set
it, declare a record, scan into it, call AfterScan, append it or pass it on are well typed, if the records are not in an
array and the query is not one without records. -/
theorem C108_output {K : Ty → Prop} (hK : Distinct K) {env : Env} {cache : Cache} {n : Bytes} {fs : List Analysis.Field}
    {s : St} (hF : ∀ f ∈ fs, K f.2) (hc : CacheFit K cache) (e : analyzeQuery env cache n fs = .ok s) (t : TargetInfo)
    (hr : s.q.result = none → ¬ Recordless s.q.kind s.q.rel) (ha : (outputType s.q).isArray = false) :
    ∃ f ∈ fs, f.1.name = outputName s.q ∧ ∃ b g, TypedOutput s.q t f.2 b g := by
  obtain ⟨h1, h2, _⟩ := C108_analysed hK hF hc e
  have key : Declared fs (outputName s.q) (outputType s.q) := by
    unfold outputName outputType
    cases hq : s.q.result with
    | none => exact h1.resolve_left (hr hq)
    | some x => exact h2 x hq
  obtain ⟨f, hf, hn, b, g, h⟩ := key
  exact ⟨f, hf, hn, b, g, typed_of_fit h ha⟩

/-- **C108** The records of an insert or update are read from a field of the struct: `v` in `for i, v := range q.F`
for a slice, otherwise `q.F`, has the fields of the struct, if the records are not in an array. -/
theorem C108_input {K : Ty → Prop} (hK : Distinct K) {env : Env} {cache : Cache} {n : Bytes} {fs : List Analysis.Field}
    {s : St} (hF : ∀ f ∈ fs, K f.2) (hc : CacheFit K cache) (e : analyzeQuery env cache n fs = .ok s)
    (hr : ¬ Recordless s.q.kind s.q.rel) (ha : s.q.rel.type.isArray = false) (hi : s.q.rel.type.isIter = false) :
    ∃ f ∈ fs, f.1.name = s.q.rel.fieldName ∧ ∃ b g, Selects (inTy s.q.rel.type f.2 b) g ∧
      (s.q.rel.type.isSlice = true → inputRoot s.q = .ident b!"v" ∧ under f.2 = .slice (inTy s.q.rel.type f.2 b)) ∧
      (s.q.rel.type.isSlice = false → inputRoot s.q = .sel (.ident b!"q") f.1.name ∧ inTy s.q.rel.type f.2 b = f.2) := by
  obtain ⟨h1, _, _⟩ := C108_analysed hK hF hc e
  obtain ⟨f, hf, hn, b, g, h⟩ := h1.resolve_left hr
  refine ⟨f, hf, hn, b, g, ?_, ?_, ?_⟩
  · unfold inTy
    split
    · exact selects_record h.struct
    · next hs =>
      simp only [Bool.not_eq_true] at hs
      cases hp : s.q.rel.type.isPointer with
      | true => exact .inr ⟨b, h.pointer hi hs ha hp, h.struct⟩
      | false => rw [h.value hi hs ha hp]; exact .inl h.struct
  · intro hs
    refine ⟨by rw [inputRoot, if_pos hs], ?_⟩
    rw [inTy, if_pos hs]
    exact h.slice hs
  · intro hs
    exact ⟨by rw [inputRoot, if_neg (by simp [hs]), hn]; rfl, by rw [inTy, if_neg (by simp [hs])]⟩

end Verif.Generator.Scoped
