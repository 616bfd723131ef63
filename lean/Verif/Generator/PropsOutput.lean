import Verif.Generator.PropsInit

/- C42: what is returned by the statement and where it is scanned. -/
namespace Verif.Generator
open Verif.Analysis Verif.Postgres

def stmtReturned : Stmt Slot → List (VExpr Slot)
  | .insert _ _ _ _ _ r => r
  | .update _ _ _ _ _ r => r
  | .select cs .. => cs
  | .delete _ _ _ r => r
  | _ => []

def tailReturned : Tail Slot → List (VExpr Slot)
  | .insert _ r => r
  | .update _ _ r => r
  | .none => []

/-- The values that make up a row returned by the statement; not those of a count or exists. -/
def returned (c : Code) : List (VExpr Slot) := stmtReturned c.sql.stmt ++ tailReturned c.sql.tail

/-- The column a value is taken from unless it is NULL. -/
def source {α : Type} : VExpr α → Option ColIdent
  | .col c => some c
  | .cast x _ => source x
  | .coalesce x _ => source x
  | _ => none

theorem source_readVal {α : Type} (r : FieldRead) : source (readVal r : VExpr α) = some r.colIdent := by
  unfold readVal
  split
  · unfold addCoalesce
    split
    · rfl
    · split
      · rfl
      · split <;> rfl
  · rfl

/-- The converter is applied if there is one. -/
def converted (fn : Bytes) (x : GoExpr) : GoExpr := if fn = [] then x else .conv fn x

theorem addConv_eq (fn : Bytes) (x : GoExpr) : addConv fn x = converted fn x := by
  cases fn <;> rfl

/-- Where a field is scanned. -/
def destination (q : Query) (r : FieldRead) : GoExpr :=
  converted r.scanner (.addr (recordField (outputVar q) (names r.field.selector ++ [r.field.name])))

theorem outputArgs_eq {q : Query} {t : TargetInfo} (hk : isSelectCountOrExists q = false) :
    outputArgs q t = t.reads.map (destination q) := by
  have : outputArgs q t = t.reads.map (scanArg q) := by
    simp only [outputArgs, hasOutput, hk]
    cases t.reads <;> simp
  rw [this]
  apply List.map_congr_left
  intro r _
  rw [scanArg, addConv_eq, fieldSel_eq]
  rfl

theorem returned_eq {q : Query} {t : TargetInfo} {c : Code}
    (hk : isSelectCountOrExists q = false) (hu : q.isSliceUpdate = false) (hc : generate q t = some c) :
    returned c = t.reads.map readVal := by
  obtain ⟨js, g1, w, g2, _, _, hst, _⟩ := generate_split hc
  cases hq : q.kind with
  | insert =>
    simp only [buildStmt, hq, Option.some.injEq] at hst
    rw [returned, ← hst, buildInsert]
    split
    · split
      · rfl
      · exact List.append_nil _
    · exact List.append_nil _
  | update =>
    have hs : q.rel.type.isSlice = false := by simpa [Query.isSliceUpdate, hq] using hu
    simp only [buildStmt, hq, buildUpdate, hs, Option.map_eq_some_iff, Bool.false_eq_true, if_false] at hst
    obtain ⟨_, _, hst⟩ := hst
    rw [returned, ← hst]
    by_cases hx : q.filter.isSome = true ∧ (outputVals (α := Slot) t).length > 0
    · rw [if_pos hx]; rfl
    · rw [if_neg hx]; exact List.append_nil _
  | select =>
    simp only [buildStmt, hq, Option.some.injEq] at hst
    rw [returned, ← hst]
    exact List.append_nil _
  | selectCount => simp [isSelectCountOrExists, hq, QKind.isSelect] at hk
  | selectExists => simp [isSelectCountOrExists, hq, QKind.isSelect] at hk
  | selectNotExists => simp [isSelectCountOrExists, hq, QKind.isSelect] at hk
  | delete =>
    simp only [buildStmt, hq, buildDelete, Option.map_eq_some_iff] at hst
    obtain ⟨_, _, hst⟩ := hst
    rw [returned, ← hst]
    exact List.append_nil _

/-- The fields that are read are those of the output. -/
theorem reads_output {cat : Catalog} {q : Query} {t : TargetInfo} (h : Built cat q t) :
    ∀ r ∈ t.reads, r.field ∈ (outputType q).fields := by
  obtain ⟨env, cache, n, fs, s, e, rfl⟩ := h.analyzed
  obtain ⟨_, h1, h2⟩ := C33_results env cache n fs s e
  intro r hr
  have hrd := (C49_reads h.checked r hr).1
  obtain ⟨c, hc, r1, r2, rw', hr1, hr2, hrel, hrs, _⟩ := checkQuery_ok h.checked
  unfold outputType
  cases hq : s.q.result with
  | none =>
    rcases hrd with h | ⟨n, t, ht, _⟩
    · exact h
    · rw [hq] at ht; cases ht
  | some nt =>
    obtain ⟨n', t'⟩ := nt
    have hret : s.q.ret = none := by
      cases hx : s.q.ret with
      | none => rfl
      | some l =>
        have : s.q.resultTargets ≥ 2 := by simp [Query.resultTargets, hq, hx, b2n]
        omega
    have hsel : s.q.kind.isSelect = false := by
      cases hx : s.q.kind.isSelect with
      | false => rfl
      | true =>
        have := h2 hx
        simp [Query.resultTargets, hq, b2n] at this
    rw [hret] at hr1
    cases hr1
    have hrw : rw'.1 = [] := by
      unfold checkRel at hrel
      split at hrel
      · cases hrel; rfl
      · split at hrel
        · rename_i hk; rw [hk] at hsel; cases hsel
        · split at hrel
          · simp only [Res.map_eq_ok] at hrel
            obtain ⟨_, _, rfl⟩ := hrel
            rfl
          · cases hrel; rfl
    rw [hrs, hrw, List.nil_append, List.append_nil] at hr
    rw [hq] at hr2
    simp only [checkResult, Res.map_eq_ok] at hr2
    obtain ⟨l, hl, rfl⟩ := hr2
    exact (checkReads_mem (s := fun _ => true) hl hr).1

/-- **C42** There are as many destinations as values in a row.  The i-th value is taken from the column of
the i-th field, which is a field of the output record, and scanned into that field. -/
theorem C42_fields {cat : Catalog} {q : Query} {t : TargetInfo} {c : Code} (h : Built cat q t)
    (hk : isSelectCountOrExists q = false) (hu : q.isSliceUpdate = false) (hc : generate q t = some c) :
    (returned c).length = t.reads.length ∧ (outputArgs q t).length = t.reads.length ∧
    ∀ (i : Nat) (r : FieldRead), t.reads[i]? = some r →
      (∃ x, (returned c)[i]? = some x ∧
        source x = some { qualifier := q.rel.id.alias, name := r.field.colIdent.name }) ∧
      (outputArgs q t)[i]? = some (destination q r) ∧ r.field ∈ (outputType q).fields := by
  rw [returned_eq hk hu hc, outputArgs_eq hk]
  refine ⟨by simp, by simp, fun i r hr => ?_⟩
  have hm := List.mem_of_getElem? hr
  refine ⟨⟨readVal r, by simp [hr], ?_⟩, by simp [hr], reads_output h r hm⟩
  rw [source_readVal, (C49_reads h.checked r hm).2.1]

/-- **C42** The value of a count or exists is scanned into the field. -/
theorem C42_count {q : Query} {t : TargetInfo} {c : Code} (hk : isSelectCountOrExists q = true)
    (hc : generate q t = some c) :
    outputArgs q t = [.addr (.sel (.ident b!"q") (outputName q))] ∧
    ((∃ a b d e f, c.sql.stmt = .count a b d e f) ∨ ∃ a b d e f g i j, c.sql.stmt = .exists_ a b d e f g i j) := by
  refine ⟨by simp [outputArgs, hasOutput, hk, outputRoot, recv], ?_⟩
  obtain ⟨js, g1, w, g2, _, _, hst, _⟩ := generate_split hc
  cases hq : q.kind <;> simp [isSelectCountOrExists, hq, QKind.isSelect] at hk
  · simp only [buildStmt, hq, Option.some.injEq] at hst
    rw [← hst, buildCount]
    split <;> exact .inl ⟨_, _, _, _, _, rfl⟩
  · simp only [buildStmt, hq, Option.some.injEq] at hst
    rw [← hst, buildExists]
    simp only []
    split <;> exact .inr ⟨_, _, _, _, _, _, _, _, rfl⟩
  · simp only [buildStmt, hq, Option.some.injEq] at hst
    rw [← hst, buildExists]
    simp only []
    split <;> exact .inr ⟨_, _, _, _, _, _, _, _, rfl⟩

/-! ### The record -/

theorem analyzeRelField_iter {env : Env} {s s' : St1} {h : FieldHdr} {t : Ty}
    (e : analyzeRelField env s h t = .ok s') :
    ∀ r, s'.rel = some r → (s'.kind = .insert ∨ s'.kind = .update) → r.type.isIter = false := by
  unfold analyzeRelField at e
  simp only [Res.bind_eq_ok] at e
  obtain ⟨_, _, rid, _, rs, _, e⟩ := e
  have kind : ∀ k, (k = QKind.selectCount ∨ k = .selectExists ∨ k = .selectNotExists) →
      toKind s k { fieldName := h.name, id := rid } rs = .ok s' →
      ∀ r, s'.rel = some r → (s'.kind = .insert ∨ s'.kind = .update) → r.type.isIter = false := by
    intro k hk he
    simp only [toKind, Res.map_eq_ok] at he
    obtain ⟨_, _, rfl⟩ := he
    intro r _ hi
    rcases hk with rfl | rfl | rfl <;> simp at hi
  split at e
  · exact kind _ (.inl rfl) e
  · split at e
    · exact kind _ (.inr (.inl rfl)) e
    · split at e
      · exact kind _ (.inr (.inr rfl)) e
      · simp only [Res.bind_eq_ok] at e
        obtain ⟨d, _, e⟩ := e
        split at e
        · simp only [Res.map_eq_ok] at e
          obtain ⟨_, _, rfl⟩ := e
          intro r hr _
          simp only [Option.some.injEq] at hr
          rw [← hr]
        · simp only [Res.bind_eq_ok, Res.map_eq_ok] at e
          obtain ⟨p, _, _, hf, rfl⟩ := e
          intro r hr hi
          simp only [Option.some.injEq] at hr
          rw [← hr]
          unfold failIf at hf
          split at hf
          · cases hf
          · rename_i hn
            rcases hi with hi | hi <;> simp only at hi <;> simpa [hi] using hn

theorem relFieldsLoop_iter {env : Env} : ∀ {fs : List (FieldHdr × Ty)} {s s' : St1},
    (∀ r, s.rel = some r → (s.kind = .insert ∨ s.kind = .update) → r.type.isIter = false) →
    relFieldsLoop env s fs = .ok s' →
    ∀ r, s'.rel = some r → (s'.kind = .insert ∨ s'.kind = .update) → r.type.isIter = false
  | [], s, s', hs, e => by cases e; exact hs
  | f :: fs, s, s', hs, e => by
    rw [relFieldsLoop] at e
    split at e
    · simp only [Res.bind_eq_ok] at e
      obtain ⟨s1, h1, e⟩ := e
      exact relFieldsLoop_iter (analyzeRelField_iter h1) e
    · exact relFieldsLoop_iter hs e

/-- An iterator is not given to an insert or update. -/
theorem Built.not_iter {cat : Catalog} {q : Query} {t : TargetInfo} (h : Built cat q t)
    (hk : isInsertOrUpdate q = true) : q.rel.type.isIter = false := by
  obtain ⟨env, cache, n, fs, s, e, rfl⟩ := h.analyzed
  obtain ⟨k, r, s1, h1, _, hr, h2⟩ := analyzeQuery_split e
  obtain ⟨hkd, hrel, _⟩ := queryFields_spec h2
  rw [hrel]
  refine relFieldsLoop_iter ?_ h1 r hr ?_
  · intro r hr; cases hr
  · simp only at hkd
    rw [← hkd]
    simpa [isInsertOrUpdate] using hk

/-- **C42** The record that is scanned into: the field of the query struct itself, the i-th record of the
input, or a variable declared for the row. -/
theorem C42_record {cat : Catalog} {q : Query} {t : TargetInfo} (h : Built cat q t) (hr : t.reads ≠ []) :
    let ty := outputType q
    let root : GoExpr := .sel (.ident b!"q") (outputName q)
    let new := rootInit q t = (if ty.isPointer then .newVar else .declVar)
    (ty.isSlice = false → ty.isIter = false → outputVar q = root) ∧
    (ty.isSlice = true → isInsertOrUpdate q = true → q.result = none →
      outputVar q = .index root (.ident b!"i") ∧ rootInit q t = .none) ∧
    (ty.isSlice = true → (isInsertOrUpdate q = false ∨ q.result ≠ none) →
      outputVar q = .ident b!"v" ∧ new) ∧
    (ty.isIter = true → ty.isSlice = false → outputVar q = .ident b!"v" ∧ new) := by
  intro ty root new
  have ho : hasOutput q t = true := by
    cases hx : t.reads with
    | nil => exact absurd hx hr
    | cons _ _ => simp [hasOutput, hx]
  have hn : ∀ {α} (o : Option α), o ≠ none ↔ o.isNone = false := by intro α o; cases o <;> simp
  refine ⟨?_, ?_, ?_, ?_⟩
  · intro h1 h2
    show outputVar q = _
    unfold outputVar
    rw [if_neg (by simp only [ty] at h1; simp [h1]), if_neg (by simp only [ty] at h1 h2; simp [h1, h2])]
    rfl
  · intro h1 h2 h3
    simp only [ty] at h1
    have : canSkipRelInit q = true := by simp [canSkipRelInit, h2, h3]
    refine ⟨by rw [outputVar, if_pos (by simp [h1, this])]; rfl, by simp [rootInit, ho, this]⟩
  · intro h1 h2
    simp only [ty, new] at h1 ⊢
    have : canSkipRelInit q = false := by
      rcases h2 with h2 | h2
      · simp [canSkipRelInit, h2]
      · rw [hn] at h2; simp [canSkipRelInit, h2]
    refine ⟨by rw [outputVar, if_neg (by simp [this]), if_pos (by simp [h1])], ?_⟩
    cases hp : (outputType q).isPointer <;> simp [rootInit, ho, this, h1, hp]
  · intro h1 h2
    simp only [ty, new] at h1 h2 ⊢
    have : canSkipRelInit q = false := by
      cases hx : canSkipRelInit q with
      | false => rfl
      | true =>
        simp only [canSkipRelInit, Bool.and_eq_true, Option.isNone_iff_eq_none] at hx
        have hi := h.not_iter hx.1
        simp only [outputType, hx.2, hi] at h1
        cases h1
    refine ⟨by rw [outputVar, if_neg (by simp [h2]), if_pos (by simp [h1])], ?_⟩
    cases hp : (outputType q).isPointer <;> simp [rootInit, ho, this, h1, h2, hp]

/-! ### The rows -/

theorem range_step {α : Type} (f : Nat → α) (i n : Nat) :
    (List.range (n + 1)).map (fun j => f (i + j)) = f i :: (List.range n).map (fun j => f (i + 1 + j)) := by
  rw [List.range_succ_eq_map, List.map_cons, List.map_map]
  have : ((fun j => f (i + j)) ∘ Nat.succ) = fun j => f (i + 1 + j) := by
    funext j
    simp only [Function.comp_apply, Nat.succ_eq_add_one]
    rw [show i + (j + 1) = i + 1 + j by omega]
  rw [this, Nat.add_zero]

/-- **C42** The rows, in order, are appended to the output, visited by the iterator, or stored in the
records of the input, which must not be fewer. -/
theorem C42_rows (q : Query) (t : TargetInfo) (len n : Nat) :
    (keepOf q t = .append → scanRows q t len 0 n = some ((List.range n).map fun i => .element (len + i))) ∧
    (keepOf q t = .iterate → scanRows q t len 0 n = some ((List.range n).map .visited)) ∧
    (keepOf q t = .input → n ≤ len → scanRows q t len 0 n = some ((List.range n).map .element)) ∧
    (keepOf q t = .input → len < n → scanRows q t len 0 n = none) := by
  refine ⟨fun hk => ?_, fun hk => ?_, fun hk hl => ?_, fun hk hl => ?_⟩
  · have : ∀ n i, scanRows q t len i n = some ((List.range n).map fun j => .element (len + (i + j))) := by
      intro n
      induction n with
      | zero => intro i; rfl
      | succ n ih =>
        intro i
        rw [scanRows]
        simp only [hk, ih, Option.map_some]
        exact congrArg some (range_step (fun x => Target.element (len + x)) i n).symm
    simpa using this n 0
  · have : ∀ n i, scanRows q t len i n = some ((List.range n).map fun j => .visited (i + j)) := by
      intro n
      induction n with
      | zero => intro i; rfl
      | succ n ih =>
        intro i
        rw [scanRows]
        simp only [hk, ih, Option.map_some]
        exact congrArg some (range_step Target.visited i n).symm
    simpa using this n 0
  · have : ∀ n i, i + n ≤ len → scanRows q t len i n = some ((List.range n).map fun j => .element (i + j)) := by
      intro n
      induction n with
      | zero => intro i _; rfl
      | succ n ih =>
        intro i hi
        rw [scanRows]
        simp only [hk, ih (i + 1) (by omega), Option.map_some]
        rw [if_pos (by omega)]
        exact congrArg some (range_step Target.element i n).symm
    simpa using this n 0 (by omega)
  · have : ∀ n i, i ≤ len → len < i + n → scanRows q t len i n = none := by
      intro n
      induction n with
      | zero => intro i h1 h2; omega
      | succ n ih =>
        intro i h1 h2
        rw [scanRows]
        simp only [hk]
        split
        · rw [ih (i + 1) (by omega) (by omega)]; rfl
        · rfl
    exact this n 0 (by omega) (by omega)

/-- At most one of Return and Result, and none of them in a select. -/
theorem Built.targets {cat : Catalog} {q : Query} {t : TargetInfo} (h : Built cat q t) :
    (q.result ≠ none → q.ret = none) ∧ (q.kind.isSelect = true → q.result = none ∧ q.ret = none) := by
  obtain ⟨env, cache, n, fs, s, e, rfl⟩ := h.analyzed
  obtain ⟨_, h1, h2⟩ := C33_results env cache n fs s e
  revert h1 h2
  simp only [Query.resultTargets]
  cases s.q.result <;> cases s.q.ret <;> cases s.q.kind.isSelect <;> simp [b2n] <;> omega

/-- **C42** The method calls Exec if nothing is to be returned, QueryRow if the output is one record or
value, and Query otherwise. -/
theorem C42_call {cat : Catalog} {q : Query} {t : TargetInfo} (h : Built cat q t) :
    (callOf q = .exec ↔ q.result = none ∧ q.ret = none ∧ q.kind.isSelect = false) ∧
    (callOf q = .row → isSingle (outputType q) = true) ∧
    (callOf q = .rows → isSingle (outputType q) = false) := by
  obtain ⟨h1, h2⟩ := h.targets
  cases hr : q.result <;> cases ht : q.ret <;> cases hk : q.kind.isSelect <;>
    simp [hr, ht, hk] at h1 h2 <;> simp [callOf, isWithoutOutput, isSingleOutput, outputType, hr, ht, hk] <;> split <;> simp

/-- **C42** In the loop over the rows either a variable is declared for the row and then appended or given
to the iterator, or the row goes to the i-th record of the input. -/
theorem C42_loop {cat : Catalog} {q : Query} {t : TargetInfo} (h : Built cat q t) (hr : t.reads ≠ [])
    (hc : callOf q = .rows) (ha : (outputType q).isArray = false) :
    (outputVar q = .ident b!"v" ∧ rootInit q t = (if (outputType q).isPointer then .newVar else .declVar) ∧
      keepOf q t = (if (outputType q).isIter then .iterate else .append)) ∨
    (outputVar q = .index (.sel (.ident b!"q") q.rel.fieldName) (.ident b!"i") ∧ rootInit q t = .none ∧
      keepOf q t = .input) := by
  have hs := (C42_call h).2.2 hc
  simp only [isSingle, ha, Bool.not_false, Bool.and_true, Bool.and_eq_false_iff,
    Bool.not_eq_false'] at hs
  obtain ⟨_, h2, h3, h4⟩ := C42_record h hr
  by_cases hsl : (outputType q).isSlice = true
  · by_cases hk : isInsertOrUpdate q = true ∧ q.result = none
    · obtain ⟨a, b⟩ := h2 hsl hk.1 hk.2
      have ht : outputType q = q.rel.type := by simp [outputType, hk.2]
      have hi := h.not_iter hk.1
      right
      refine ⟨by simpa [outputName, hk.2] using a, b, ?_⟩
      rw [keepOf, if_pos hc, if_neg (by simp [hasOutput, hr]), ht, if_neg (by simp [hi])]
      rw [ht] at hsl
      simp [isInsertOrUpdateSlice, hk.1, hk.2, hsl]
    · have hk' : isInsertOrUpdate q = false ∨ q.result ≠ none := by
        cases hx : isInsertOrUpdate q with
        | false => exact .inl rfl
        | true => exact .inr fun hy => hk ⟨hx, hy⟩
      obtain ⟨a, b⟩ := h3 hsl hk'
      left
      refine ⟨a, b, ?_⟩
      rw [keepOf, if_pos hc, if_neg (by simp [hasOutput, hr])]
      split
      · rfl
      · rw [if_neg]
        rcases hk' with hk' | hk'
        · simp [isInsertOrUpdateSlice, hk']
        · intro hx
          simp only [Bool.and_eq_true, Option.isNone_iff_eq_none] at hx
          exact hk' hx.2
  · have hi : (outputType q).isIter = true := by
      rcases hs with hs | hs
      · exact absurd hs hsl
      · exact hs
    obtain ⟨a, b⟩ := h4 hi (by simpa using hsl)
    left
    exact ⟨a, b, by rw [keepOf, if_pos hc, if_neg (by simp [hasOutput, hr])]; simp [hi]⟩

end Verif.Generator
