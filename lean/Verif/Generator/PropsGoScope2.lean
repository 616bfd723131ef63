import Verif.Generator.PropsGoScope
import Verif.Generator.PropsOutput
import Verif.Generator.PropsBatch

/- Property C106: what a method declares and uses, from what is known about the code. -/
namespace Verif.Generator.Scoped
open Verif.Analysis Verif.Postgres Verif.Generator.Print GoBlk

/-- What is needed to know about the code of a query. -/
structure Usable (q : Query) (t : TargetInfo) (c : Code) : Prop where
  slots : ∀ k, .slice k ∈ c.sql.stmt.slots ∨ .slice k ∈ c.sql.tail.slots → 1 ≤ k ∧ k ≤ c.g.slices.length
  slices : ∀ x ∈ c.g.slices, idents x = [b!"q"]
  args : isInsertOrUpdateSlice q = false → ∀ x ∈ c.args, idents x = [b!"q"]
  batch : isInsertOrUpdateSlice q = true → c.g.slices = [] ∧ q.filter = none ∧
    (∀ x ∈ c.args, idents x = [b!"v"]) ∧ (c.args = [] → (c.rowVals.any fun v => !isDefault v) = false)
  row : callOf q = .row → isSingle (outputType q) = true
  loop : callOf q = .rows → hasOutput q t = true ∧
    ((outputVar q = .ident b!"v" ∧ (rootInit q t = .newVar ∨ rootInit q t = .declVar) ∧
      (keepOf q t = .iterate ∨ keepOf q t = .append)) ∨
    (idents (outputVar q) = [b!"q", b!"i"] ∧ rootInit q t = .none ∧ keepOf q t = .input))

/-- The parameters are passed as a list. -/
def passes (q : Query) (c : Code) : Bool :=
  decide (c.g.slices.length > 0 ∨ q.filter.isSome ∨ (isInsertOrUpdateSlice q ∧ c.args.length > 0))

/-- The names that the statements after the query string declare. -/
def laterNames : List Bytes := [b!"row", b!"rows", b!"res", b!"err", b!"i64", b!"i", b!"v"]

/-- The variables from outside that the statements after the query string use. -/
def Outer (conf : PrintConf) (p : Bool) (x : Bytes) : Prop :=
  x ∈ methodParams conf ∨ x = b!"queryString" ∨ (p = true ∧ x = b!"params")

structure Good (conf : PrintConf) (p : Bool) (b : GoBlk) : Prop where
  sub : ∀ x ∈ b.free, Outer conf p x
  query : b!"queryString" ∈ b.free
  params : p = true → b!"params" ∈ b.free
  ends : b.ends = true
  fine : ∀ cur, (∀ n ∈ laterNames, n ∉ cur) → b.fine cur = true

theorem q_mem (conf : PrintConf) : b!"q" ∈ methodParams conf := by simp [methodParams]
theorem c_mem (conf : PrintConf) : b!"c" ∈ methodParams conf := by simp [methodParams]

theorem not_param {conf : PrintConf} {x : Bytes} (h : x ∈ methodParams conf) : x ≠ b!"queryString" ∧ x ≠ b!"params" ∧
    x ≠ b!"pos" ∧ x ≠ b!"nstatic" ∧ x ≠ b!"filterString" ∧ x ∉ laterNames := by
  unfold methodParams at h
  split at h <;> simp at h <;> rcases h with rfl | rfl | rfl <;> decide

theorem conn_facts {conf : PrintConf} {q : Query} {t : TargetInfo} {c : Code} (h : Usable q t c) :
    (∀ x ∈ connVars conf q c, Outer conf (passes q c) x) ∧ b!"queryString" ∈ connVars conf q c ∧
      (passes q c = true → b!"params" ∈ connVars conf q c) := by
  refine ⟨?_, by simp [connVars, inputVars], ?_⟩
  · intro x hx
    simp only [connVars, inputVars, List.mem_cons, List.mem_append, List.not_mem_nil, or_false] at hx
    rcases hx with rfl | (hx | rfl) | hx
    · exact .inl (c_mem conf)
    · split at hx
      · next hc => simp only [List.mem_singleton] at hx; exact .inl (by simp [methodParams, hc, hx])
      · split at hx
        · simp only [List.mem_singleton] at hx; exact .inl (hx ▸ q_mem conf)
        · cases hx
    · exact .inr (.inl rfl)
    · split at hx
      · next hp => simp only [List.mem_singleton] at hx; exact .inr (.inr ⟨by simpa [passes] using hp, hx⟩)
      · next hp =>
        obtain ⟨a, ha, hx⟩ := List.mem_flatMap.1 hx
        cases hs : isInsertOrUpdateSlice q with
        | false => rw [h.args hs a ha] at hx; simp only [List.mem_singleton] at hx; exact .inl (hx ▸ q_mem conf)
        | true =>
          exfalso
          apply hp
          refine .inr (.inr ⟨hs, List.length_pos_iff.2 ?_⟩)
          intro h0
          rw [h0] at ha
          cases ha
  · intro hp
    have hp : c.g.slices.length > 0 ∨ q.filter.isSome ∨ (isInsertOrUpdateSlice q ∧ c.args.length > 0) := by
      simpa [passes] using hp
    simp [connVars, inputVars, if_pos hp]

theorem idents_sels (l : List SelNode) (x : GoExpr) : idents (l.foldl (fun x n => .sel x n.name) x) = idents x := by
  induction l generalizing x with
  | nil => rfl
  | cons n l ih => rw [List.foldl_cons, ih]; rfl

theorem idents_fieldSel (x : GoExpr) (f : FieldInfo) : idents (fieldSel x f) = idents x := by
  simp only [fieldSel, idents, idents_sels]

theorem idents_addConv (f : Bytes) (x : GoExpr) : idents (addConv f x) = idents x := by
  unfold addConv
  split <;> rfl

theorem idents_root (q : Query) : idents (outputRoot q) = [b!"q"] := rfl

theorem outVars_sub (q : Query) (t : TargetInfo) : ∀ x ∈ outVars q t, x = b!"q" ∨ x ∈ idents (outputVar q) := by
  intro x hx
  obtain ⟨a, ha, hx⟩ := List.mem_flatMap.1 hx
  unfold outputArgs at ha
  split at ha
  · cases ha
  · split at ha
    · simp only [List.mem_singleton] at ha
      subst ha
      simp only [idents, idents_root, List.mem_singleton] at hx
      exact .inl hx
    · obtain ⟨r, _, rfl⟩ := List.mem_map.1 ha
      rw [scanArg, idents_addConv] at hx
      simp only [idents, idents_fieldSel] at hx
      exact .inr hx

theorem single_var {q : Query} (h : isSingle (outputType q) = true) : outputVar q = outputRoot q := by
  simp only [isSingle, Bool.and_eq_true, Bool.not_eq_true'] at h
  simp [outputVar, h.1.1, h.1.2]

theorem single_init {q : Query} {t : TargetInfo} (h : isSingle (outputType q) = true) :
    rootInit q t = .none ∨ rootInit q t = .newRoot := by
  simp only [isSingle, Bool.and_eq_true, Bool.not_eq_true'] at h
  unfold rootInit
  simp only [h.1.1, h.1.2]
  split
  · exact .inl rfl
  · split
    · exact .inl rfl
    · split
      · exact .inr rfl
      · simp

section
variable {conf : PrintConf} {s : List Imp} {q : Query} {t : TargetInfo} {c : Code} {p : Bool} {r : GoBlk}

theorem Good.stmt (h : Good conf p r) (us ps : List Bytes) (x : Bytes) (hu : ∀ n ∈ us, Outer conf p n) :
    Good conf p (.stmt us ps x r) where
  sub n hn := by
    rcases List.mem_append.1 hn with hn | hn
    · exact hu n hn
    · exact h.sub n hn
  query := List.mem_append_right _ h.query
  params hp := List.mem_append_right _ (h.params hp)
  ends := h.ends
  fine := h.fine

theorem Good.fallback (h : Good conf p r) (l : Option LimitField) : Good conf p (fallbackB l r) := by
  unfold fallbackB
  split
  · exact h
  · split
    · exact h.stmt _ _ _ (by intro n hn; simp only [List.mem_singleton] at hn; exact .inl (hn ▸ q_mem conf))
    · exact h

theorem Good.filterParams (hu : Usable q t c) (h : Good conf (passes q c) r) : Good conf (passes q c) (filterParamsB q c r) := by
  unfold filterParamsB
  split
  · next hf =>
    refine h.stmt _ _ _ ?_
    intro n hn
    rcases List.mem_cons.1 hn with rfl | hn
    · exact .inr (.inr ⟨by simp [passes, hf.1], rfl⟩)
    · obtain ⟨a, ha, hn⟩ := List.mem_flatMap.1 hn
      have hs : isInsertOrUpdateSlice q = false := by
        cases hs : isInsertOrUpdateSlice q with
        | false => rfl
        | true => rw [(hu.batch hs).2.1] at hf; simp at hf
      rw [hu.args hs a ha] at hn
      simp only [List.mem_singleton] at hn
      exact .inl (hn ▸ q_mem conf)
  · exact h

/-- The variables of the returned expression. -/
theorem errReturn_vars (q : Query) (t : TargetInfo) : ∀ x ∈ retVars q t (errReturn q), x = b!"q" ∨ x = b!"err" ∨ x = b!"queryString" := by
  intro x hx
  unfold errReturn at hx
  split at hx <;> simp [retVars, errVars] at hx <;> grind

theorem errReturn_err (q : Query) (t : TargetInfo) : b!"err" ∈ retVars q t (errReturn q) := by
  unfold errReturn
  split <;> simp [retVars, errVars]

/-- The statements that return an error. -/
def errB (conf : PrintConf) (s : List Imp) (q : Query) (t : TargetInfo) (c : Code) (e : ErrExpr) : GoBlk :=
  ((errorReturn q e).map GoStmt.one).foldr (goStmtB conf s q t c) .nil

theorem errB_facts (e : ErrExpr) :
    (∀ x ∈ (errB conf s q t c e).free, x = b!"q" ∨ x = b!"queryString" ∨ x ∈ errVars q t e ∨ (x = b!"err" ∧ e = .err)) ∧
    (∀ x ∈ errVars q t e, x ∈ (errB conf s q t c e).free) ∧
    (errB conf s q t c e).ends = true ∧ ∀ cur, (errB conf s q t c e).fine cur = true := by
  unfold errB errorReturn
  split
  · simp [goStmtB, instrB, retB, retVars, free, GoBlk.ends, GoBlk.fine]
    grind
  · split
    · next h =>
      subst h
      simp [goStmtB, instrB, retB, retVars, free, GoBlk.ends, GoBlk.fine, errVars]
    · simp [goStmtB, instrB, retB, retVars, free, GoBlk.ends, GoBlk.fine]
      simp [errVars]
      grind
  · simp [goStmtB, instrB, retB, retVars, free, GoBlk.ends, GoBlk.fine]
    grind

theorem retVars_nil (q : Query) (t : TargetInfo) : retVars q t (.plain .nil) = [] := rfl

theorem good_exec (hu : Usable q t c) (hc : callOf q = .exec) :
    Good conf (passes q c) (queryRowB conf q c (resultB conf s q t c)) := by
  obtain ⟨v1, v2, v3⟩ := conn_facts (conf := conf) hu
  have hq := q_mem conf
  have he : ∀ b : GoBlk, queryRowB conf q c b = b := by intro b; simp [queryRowB, hc]
  rw [he]
  simp only [resultB, resultStmts, hc, execStmts, List.foldr_cons]
  cases hr : q.rowsAffected with
  | none =>
    obtain ⟨e1, e2, e3, e4⟩ := errB_facts (conf := conf) (s := s) (q := q) (t := t) (c := c) .err
    simp only [goStmtB, instrB, callB, hr]
    change Good conf (passes q c) (.decl true _ _ _ _ (errB conf s q t c .err))
    refine ⟨?_, List.mem_append_left _ v2, fun h => List.mem_append_left _ (v3 h), e3, ?_⟩
    · intro x hx
      simp only [free, List.mem_append, List.mem_filter] at hx
      rcases hx with hx | ⟨hx, hn⟩
      · exact v1 x hx
      · have := e1 x hx
        simp only [errVars, List.mem_singleton] at this
        simp at hn
        unfold Outer
        grind
    · intro cur hcur
      have h1 : b!"err" ∉ cur := hcur _ (by decide)
      have h2 := e2 b!"err" (by simp [errVars])
      simp [GoBlk.fine, h1, h2, e4]
  | some fk =>
    obtain ⟨f, k⟩ := fk
    have r1 := errReturn_vars q t
    have r2 := errReturn_err q t
    simp only [goStmtB, instrB, callB, hr, List.map_cons, List.map_nil, List.foldr_cons, List.foldr_nil, retB, retVars_nil]
    refine ⟨?_, List.mem_append_left _ v2, fun h => List.mem_append_left _ (v3 h), ?_, ?_⟩
    · intro x hx
      simp [free] at hx
      unfold Outer
      grind [Outer]
    · simp [GoBlk.ends]
    · intro cur hcur
      have h1 : b!"err" ∉ cur := hcur _ (by decide)
      have h2 : b!"res" ∉ cur := hcur _ (by decide)
      have h3 : b!"i64" ∉ cur := hcur _ (by decide)
      simp [GoBlk.fine, free, h1, h2, h3]

/-- What is done to a record before it is scanned into: the record itself is not declared. -/
theorem init_root (hs : isSingle (outputType q) = true) (r : GoBlk) :
    (∀ x ∈ (initB s q t r).free, x = b!"q" ∨ x ∈ r.free) ∧ (∀ x ∈ r.free, x ∈ (initB s q t r).free) ∧
    (initB s q t r).ends = r.ends ∧ ∀ cur, (initB s q t r).fine cur = r.fine cur := by
  have hp : (∀ x ∈ (ptrsB s q (fieldInits q t) r).free, x = b!"q" ∨ x ∈ r.free) ∧
      (∀ x ∈ r.free, x ∈ (ptrsB s q (fieldInits q t) r).free) ∧
      (ptrsB s q (fieldInits q t) r).ends = r.ends ∧ ∀ cur, (ptrsB s q (fieldInits q t) r).fine cur = r.fine cur := by
    unfold ptrsB
    split
    · exact ⟨fun x h => .inr h, fun x h => h, rfl, fun _ => rfl⟩
    · rw [single_var hs, idents_root]
      simp [free, GoBlk.ends, GoBlk.fine]
      grind
  rcases single_init (t := t) hs with h | h
  · simp only [initB, h]
    exact hp
  · simp only [initB, h, idents_root]
    simp only [free, GoBlk.ends, GoBlk.fine]
    grind

theorem good_row (hu : Usable q t c) (hc : callOf q = .row) :
    Good conf (passes q c) (queryRowB conf q c (resultB conf s q t c)) := by
  obtain ⟨v1, v2, v3⟩ := conn_facts (conf := conf) hu
  have hq := q_mem conf
  have hs := hu.row hc
  have ho : ∀ x ∈ outVars q t, x = b!"q" := by
    intro x hx
    have := outVars_sub q t x hx
    rw [single_var hs, idents_root] at this
    simpa using this
  -- the statements after the initialization
  have key : ∃ X : GoBlk, resultB conf s q t c = initB s q t X ∧
      (∀ x ∈ X.free, x = b!"q" ∨ x = b!"queryString" ∨ x = b!"row") ∧ b!"row" ∈ X.free ∧ X.ends = true ∧
      ∀ cur, b!"err" ∉ cur → X.fine cur = true := by
    simp only [resultB, resultStmts, hc, rowStmts, List.map_cons, List.foldr_cons]
    split
    · refine ⟨errB conf s q t c (.op .rowScan), by simp [goStmtB, instrB, outerInitB, hc, errB], ?_⟩
      obtain ⟨e1, e2, e3, e4⟩ := errB_facts (conf := conf) (s := s) (q := q) (t := t) (c := c) (.op .rowScan)
      refine ⟨?_, e2 _ (by simp [errVars, opVars]), e3, fun cur _ => e4 cur⟩
      intro x hx
      have := e1 x hx
      simp only [errVars, opVars, List.mem_cons] at this
      grind
    · refine ⟨_, by simp [goStmtB, instrB, outerInitB, hc]; rfl, ?_⟩
      have r1 := errReturn_vars q t
      have r2 := errReturn_err q t
      cases afterScans q t
      · simp only [goStmtB, instrB, callB, List.map_cons, List.map_nil, List.foldr_cons, List.foldr_nil, retB, retVars_nil,
          List.cons_append, List.nil_append, List.append_nil, Bool.false_eq_true, if_false, opVars]
        refine ⟨?_, by simp [free], by simp [GoBlk.ends], ?_⟩
        · intro x hx
          simp [free] at hx
          grind
        · intro cur h1
          simp [GoBlk.fine, free, h1]
      · simp only [goStmtB, instrB, callB, List.map_cons, List.map_nil, List.foldr_cons, List.foldr_nil, retB, retVars_nil,
          List.cons_append, List.nil_append, List.append_nil, if_true, opVars, single_var hs, idents_root]
        refine ⟨?_, by simp [free], by simp [GoBlk.ends], ?_⟩
        · intro x hx
          simp [free] at hx
          grind
        · intro cur h1
          simp [GoBlk.fine, free, h1]
  obtain ⟨X, hX, x1, x2, x3, x4⟩ := key
  obtain ⟨i1, i2, i3, i4⟩ := init_root (s := s) (t := t) hs X
  rw [hX]
  simp only [queryRowB, hc, if_true]
  refine ⟨?_, List.mem_append_left _ v2, fun h => List.mem_append_left _ (v3 h), by simp only [GoBlk.ends, i3, x3], ?_⟩
  · intro x hx
    simp [free] at hx
    rcases hx with hx | ⟨hx, hn⟩
    · exact v1 x hx
    · have := i1 x hx
      unfold Outer
      grind
  · intro cur hcur
    have h1 : b!"err" ∉ cur := hcur _ (by decide)
    have h2 : b!"row" ∉ cur := hcur _ (by decide)
    have h3 := i2 _ x2
    simp [GoBlk.fine, h2, h3, i4, x4, h1]

theorem good_rows (hu : Usable q t c) (hc : callOf q = .rows) :
    Good conf (passes q c) (queryRowB conf q c (resultB conf s q t c)) := by
  obtain ⟨v1, v2, v3⟩ := conn_facts (conf := conf) hu
  have hq := q_mem conf
  have r1 := errReturn_vars q t
  have r2 := errReturn_err q t
  obtain ⟨hout, hl⟩ := hu.loop hc
  have ho := outVars_sub q t
  have he : ∀ b : GoBlk, queryRowB conf q c b = b := by intro b; simp [queryRowB, hc]
  rw [he]
  obtain ⟨e1, e2, e3, e4⟩ := errB_facts (conf := conf) (s := s) (q := q) (t := t) (c := c) (.op .rowsErr)
  have hrows := e2 b!"rows" (by simp [errVars, opVars])
  -- the loop
  have key : ∃ B : GoBlk, resultB conf s q t c = .decl true [b!"rows", b!"err"] (connVars conf q c) (inputPkgs q c)
        (callText conf q t c .query) (.block [] [b!"err"] [] (line b!"if err != nil {") (retB q t (errReturn q) .nil)
          (.stmt [b!"rows"] [] (line b!"defer rows.Close()") (outerInitB s q t
            (.block [] [b!"rows"] [] (line b!"for rows.Next() {") B (errB conf s q t c (.op .rowsErr)))))) ∧
      (∀ x ∈ B.free, x = b!"q" ∨ x = b!"queryString" ∨ x = b!"rows" ∨ (x = b!"i" ∧ keepOf q t = .input)) ∧
      (keepOf q t = .input → b!"i" ∈ B.free) ∧ B.fine [] = true := by
    refine ⟨instrsB conf (initB s q t) q t c (loopBody q t) .nil, ?_, ?_⟩
    · simp only [resultB, resultStmts, hc, rowsStmts, List.foldr_append, List.foldr_cons, List.foldr_nil, goStmtB, instrB, callB]
      rfl
    · have hp : ∀ r : GoBlk, (∀ x ∈ (ptrsB s q (fieldInits q t) r).free, x ∈ idents (outputVar q) ∨ x ∈ r.free) ∧
          (∀ x ∈ r.free, x ∈ (ptrsB s q (fieldInits q t) r).free) ∧
          ∀ cur, (ptrsB s q (fieldInits q t) r).fine cur = r.fine cur := by
        intro r
        unfold ptrsB
        split
        · exact ⟨fun x h => .inr h, fun x h => h, fun _ => rfl⟩
        · simp [free, GoBlk.fine]
          grind
      simp only [loopBody, instrsB, List.foldr_append, List.foldr_cons, List.foldr_nil]
      -- after the scan
      have last : ∀ A : GoBlk, A = List.foldr (instrB conf (initB s q t) q t c)
            (instrB conf (initB s q t) q t c
              (if keepOf q t = .iterate then .ifInit (.op .visit) (errReturn q) else .keep) .nil)
            (if afterScans q t then [.afterScan] else []) →
          (∀ x ∈ A.free, x = b!"q" ∨ x = b!"queryString" ∨ x ∈ idents (outputVar q)) ∧
          (outputVar q = .ident b!"v" → b!"v" ∈ A.free) ∧ (keepOf q t = .input → b!"i" ∈ A.free) ∧
          ∀ cur, A.fine cur = true := by
        intro A hA
        have hroot := idents_root q
        rcases hl with ⟨h1, h2, h3 | h3⟩ | ⟨h1, h2, h3⟩
        · subst hA
          cases afterScans q t <;>
            simp [h1, h3, instrB, retB, free, GoBlk.fine, idents, errVars, opVars, hroot] <;> grind
        · subst hA
          cases afterScans q t <;>
            simp [h1, h3, instrB, retB, free, GoBlk.fine, idents, errVars, opVars, hroot, hout]
        · subst hA
          have hv : outputVar q ≠ .ident b!"v" := by
            intro h
            rw [h] at h1
            simp [idents] at h1
          cases afterScans q t <;>
            simp [h1, h3, instrB, retB, free, GoBlk.fine, hroot, hv]
      generalize hA : List.foldr (instrB conf (initB s q t) q t c)
            (instrB conf (initB s q t) q t c
              (if keepOf q t = .iterate then .ifInit (.op .visit) (errReturn q) else .keep) .nil)
            (if afterScans q t then [.afterScan] else []) = A
      obtain ⟨a1, a2, a3, a4⟩ := last A hA.symm
      -- the scan
      have hN : ∀ N : GoBlk, N = instrB conf (initB s q t) q t c (.call .rowsScan)
          (instrB conf (initB s q t) q t c (.ifErr (errReturn q)) A) →
          (∀ x ∈ N.free, x = b!"q" ∨ x = b!"queryString" ∨ x = b!"rows" ∨ x ∈ idents (outputVar q)) ∧
          (∀ x, x ∈ A.free → x ≠ b!"err" → x ∈ N.free) ∧
          (∀ cur, b!"err" ∉ cur → N.fine cur = true) := by
        intro N hN
        subst hN
        simp only [instrB, callB, retB, opVars]
        refine ⟨?_, ?_, ?_⟩
        · intro x hx
          simp [free] at hx
          grind
        · intro x hx hn
          simp [free]
          grind
        · intro cur h1
          simp [GoBlk.fine, free, h1, a4]
      generalize hNe : instrB conf (initB s q t) q t c (.call .rowsScan)
          (instrB conf (initB s q t) q t c (.ifErr (errReturn q)) A) = N
      obtain ⟨n1, n2, n3⟩ := hN N hNe.symm
      obtain ⟨p1, p2, p3⟩ := hp N
      simp only [instrB]
      rcases hl with ⟨h1, h2 | h2, h3⟩ | ⟨h1, h2, h3⟩
      · have hv := p2 _ (n2 _ (a2 h1) (by decide))
        have hi : keepOf q t ≠ .input := by rcases h3 with h3 | h3 <;> simp [h3]
        simp only [initB, h2, h1, idents]
        rw [h1] at p1 n1
        simp only [idents, List.mem_singleton] at p1 n1
        refine ⟨?_, fun h => absurd h hi, ?_⟩
        · intro x hx
          simp [free] at hx
          grind
        · simp [GoBlk.fine, hv, p3, n3]
      · have hv := p2 _ (n2 _ (a2 h1) (by decide))
        have hi : keepOf q t ≠ .input := by rcases h3 with h3 | h3 <;> simp [h3]
        simp only [initB, h2]
        rw [h1] at p1 n1
        simp only [idents, List.mem_singleton] at p1 n1
        refine ⟨?_, fun h => absurd h hi, ?_⟩
        · intro x hx
          simp [free] at hx
          grind
        · simp [GoBlk.fine, hv, p3, n3]
      · simp only [initB, h2]
        rw [h1] at p1 n1
        refine ⟨?_, fun h => p2 _ (n2 _ (a3 h) (by decide)), ?_⟩
        · intro x hx
          have := p1 x hx
          have := n1 x
          grind
        · rw [p3]; exact n3 _ (by simp)
  obtain ⟨B, hB, b1, b2, b3⟩ := key
  rw [hB]
  have ee : ∀ x ∈ (errB conf s q t c (.op .rowsErr)).free, x = b!"q" ∨ x = b!"queryString" ∨ x = b!"rows" := by
    intro x hx
    have := e1 x hx
    simp [errVars, opVars] at this
    grind
  unfold outerInitB
  simp only [hc, if_true]
  cases hk : decide (keepOf q t = .input)
  · have hk : keepOf q t ≠ .input := by simpa using hk
    simp only [hk, if_false, retB]
    refine ⟨?_, List.mem_append_left _ v2, fun h => List.mem_append_left _ (v3 h), by simp only [GoBlk.ends, e3], ?_⟩
    · intro x hx
      simp [free] at hx
      have := b1 x
      unfold Outer
      grind [Outer]
    · intro cur hcur
      have h1 : b!"err" ∉ cur := hcur _ (by decide)
      have h2 : b!"rows" ∉ cur := hcur _ (by decide)
      simp [GoBlk.fine, free, h1, h2, e4, b3]
  · have hk : keepOf q t = .input := by simpa using hk
    have hi := b2 hk
    simp only [hk, if_true, retB]
    refine ⟨?_, List.mem_append_left _ v2, fun h => List.mem_append_left _ (v3 h), by simp only [GoBlk.ends, e3], ?_⟩
    · intro x hx
      simp [free] at hx
      have := b1 x
      unfold Outer
      grind [Outer]
    · intro cur hcur
      have h1 : b!"err" ∉ cur := hcur _ (by decide)
      have h2 : b!"rows" ∉ cur := hcur _ (by decide)
      have h3 : b!"i" ∉ cur := hcur _ (by decide)
      simp [GoBlk.fine, free, h1, h2, h3, e4, b3, hi]

theorem good_after (hu : Usable q t c) : Good conf (passes q c)
    (fallbackB q.limit (fallbackB q.offset (filterParamsB q c (queryRowB conf q c (resultB conf s q t c))))) := by
  refine Good.fallback (Good.fallback (Good.filterParams hu ?_) _) _
  cases hc : callOf q with
  | exec => exact good_exec hu hc
  | row => exact good_row hu hc
  | rows => exact good_rows hu hc

end

end Verif.Generator.Scoped
