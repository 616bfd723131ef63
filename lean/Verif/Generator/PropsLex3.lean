import Verif.Generator.PropsLex2

/- Property C87: the statement generated for an accepted query. -/
namespace Verif.Generator.Lex
open Verif.Analysis Verif.Postgres

section
variable {α : Type} {f : α → Bytes}

/-! ### Values -/

theorem zeroValue_whole {t : PgType} {l : Bytes} (h : t.zeroValue = some l) : Whole l := by
  have all : ∀ p ∈ typeToZeroValue, Whole p.2 := by decide +kernel
  unfold PgType.zeroValue at h
  generalize typeToZeroValue = tab at h all
  induction tab with
  | nil => cases h
  | cons p ps ih =>
    obtain ⟨k, v⟩ := p
    rw [List.lookup_cons] at h
    split at h
    · cases h; exact all _ (List.mem_cons_self ..)
    · exact ih h fun p hp => all p (List.mem_cons_of_mem _ hp)

theorem addCoalesce_plain {x : VExpr α} {v : Bytes} {c : Column} (hx : ValPlain f x) (hv : Whole v)
    (hc : Whole c.type.nameFmt) : ValPlain f (addCoalesce x v c) := by
  unfold addCoalesce
  split
  · exact ⟨hx, hv, hc⟩
  · split
    · exact ⟨⟨hx, by decide⟩, show Whole b!"''" by decide⟩
    · split
      · next l hl => exact ⟨hx, zeroValue_whole hl, hc⟩
      · exact hx

theorem addNullif_plain {x : VExpr α} {c : Column} (hx : ValPlain f x) (hc : Whole c.type.nameFmt) :
    ValPlain f (addNullif x c) := by
  unfold addNullif
  split
  · refine ⟨⟨?_, show Whole b!"''" by decide⟩, hc⟩
    unfold textUnlessParam
    split
    · exact hx
    · exact ⟨hx, by decide⟩
  · split
    · next l hl => exact ⟨⟨hx, zeroValue_whole hl⟩, hc⟩
    · exact hx

theorem addCall_plain {fn : Bytes} {x : VExpr α} (hf : fn.length > 0 → Ident fn) (hx : ValPlain f x) :
    ValPlain f (addCall fn x) := by
  unfold addCall
  split
  · next h => exact ⟨hf h, hx⟩
  · exact hx

theorem whole_array {t : Bytes} (h : Whole t) : Whole (t ++ b!"[]") :=
  (h.reads.append (y := b!"[]") (b := [.punct '[', .punct ']']) (by decide)
    (show Closed b!"[]" [.punct '[', .punct ']'] by decide).reads).whole

theorem addQuant_plain {q : Option Quant} {t : Bytes} {x : VExpr α} (ht : Whole t) (hx : ValPlain f x) :
    ValPlain f (addQuant q t x) := by
  unfold addQuant
  split
  · exact hx
  · split
    · exact ⟨hx, whole_array ht⟩
    · exact hx

theorem rhsExpr_plain : ∀ {r : Rhs}, RhsPlain r → ValPlain f (rhsExpr (α := α) r)
  | .none, _ => trivial
  | .column c, h => by
    simp only [rhsExpr]
    split
    · trivial
    · exact h
  | .literal s, h => by
    simp only [rhsExpr]
    split
    · exact h
    · trivial

theorem readVal_plain {r : FieldRead} (h : ReadPlain r) : ValPlain f (readVal (α := α) r) := by
  unfold readVal
  split
  · exact addCoalesce_plain h.1 h.2.2 h.2.1
  · exact h.1

theorem outputVals_plain {t : TargetInfo} (h : InfoPlain t) : ValsPlain f (outputVals (α := α) t) := by
  intro v hv
  simp only [outputVals, List.mem_map] at hv
  obtain ⟨r, hr, rfl⟩ := hv
  exact readVal_plain (h.reads r hr)

end

section
variable {f : Slot → Bytes} (hs : ∀ a, Whole (f a))
include hs

omit hs in
theorem mapSt_plain_mem {β : Type} {g : G → β → VExpr Slot × G} : ∀ (xs : List β) (s : G),
    (∀ x ∈ xs, ∀ s, ValPlain f (g s x).1) → ValsPlain f (mapSt g s xs).1
  | [], s, _ => by intro v hv; simp [mapSt] at hv
  | x :: xs, s, hg => by
    intro v hv
    simp only [mapSt, List.mem_cons] at hv
    rcases hv with rfl | hv
    · exact hg x (List.mem_cons_self ..) s
    · exact mapSt_plain_mem xs _ (fun y hy => hg y (List.mem_cons_of_mem _ hy)) v hv

theorem writeVal_plain {q : Query} {w : FieldWrite} (h : WritePlain w) (g : G) : ValPlain f (writeVal q g w).1 := by
  unfold writeVal
  split
  · trivial
  · simp only
    split
    · exact addNullif_plain (hs _) h.2.1
    · split
      · exact ⟨hs _, h.2.1⟩
      · exact hs _

theorem targetValues_plain' {q : Query} {t : TargetInfo} (h : InfoPlain t) :
    ValsPlain f (targetValues q t).vals ∧ ValsPlain f (targetValues q t).pkeys := by
  have h1 : ValsPlain f (mapSt (writeVal q) {} t.writes).1 :=
    mapSt_plain_mem _ _ fun w hw g => writeVal_plain hs (h.writes w hw) g
  unfold targetValues
  simp only
  split
  · refine ⟨h1, mapSt_plain_mem _ _ fun w _ g => ?_⟩
    exact hs _
  · exact ⟨h1, by intro v hv; simp at hv⟩

/-! ### Conditions -/

theorem predExpr_plain {sx : GoExpr} {n : Bytes} {g : G} {p : Option Pred} {l r : VExpr Slot} (hl : ValPlain f l)
    (hr : ValPlain f r) : CondPlain f (predExpr sx n g p l r).1 := by
  unfold predExpr
  simp only
  generalize predForm p = form
  cases form with
  | binary op => simp only [formExpr, CondPlain]; exact ⟨hl, hr⟩
  | inList b => simp only [formExpr, CondPlain]; exact ⟨hl, hs _⟩
  | truth b t => simp only [formExpr, CondPlain]; exact hl
  | null b => simp only [formExpr, CondPlain]; exact hl
  | bare => simp only [formExpr, CondPlain]; exact hl

theorem fieldExpr_plain {sx : GoExpr} {g : G} {c : FieldConditional} (h : FieldCondPlain c) :
    CondPlain f (fieldExpr sx g c).1 := by
  unfold fieldExpr
  refine predExpr_plain hs (addCall_plain h.2.2 h.1) (addQuant_plain ?_ (addCall_plain h.2.2 (hs _)))
  unfold quantType
  split
  · exact h.2.1
  · decide

theorem columnExpr_plain {sx : GoExpr} {g : G} {c : ColumnConditional} (h : ColCondPlain c) :
    CondPlain f (columnExpr sx g c).1 :=
  predExpr_plain hs h.1 (addQuant_plain (by decide) (rhsExpr_plain h.2))

theorem boundExpr_plain {g : G} : ∀ {b : RangeBound}, BoundPlain b → ValPlain f (boundExpr g b).1
  | .column _, h => h
  | .field _, _ => hs _

omit hs in
theorem condsPlain_true {l : BList Slot} {b : Bool} (h : CondsPlain f b l) : CondsPlain f true l := by
  cases l with
  | nil => simp [CondsPlain]
  | cons k x rest =>
    simp only [CondsPlain] at h
    rw [CondsPlain]
    exact ⟨fun _ => rfl, h.2⟩

omit hs in
theorem addItem_plain {first : Bool} {b : Option Bool} {x : BExpr Slot} {rest : BList Slot}
    (hx : CondPlain f x) (hr : CondsPlain f false rest) : CondsPlain f first (addItem first b x rest) := by
  unfold addItem
  split
  · next h => rw [CondsPlain]; exact ⟨fun _ => h, hx, hr⟩
  · next h =>
    simp only [Bool.not_eq_true] at h
    subst h
    split
    · rw [CondsPlain]; exact ⟨fun h => (by cases h), hx, hr⟩
    · rw [CondsPlain]; exact ⟨fun h => (by cases h), hx, hr⟩
    · exact hr

set_option linter.unusedSectionVars false in
mutual
theorem condExpr_plain : ∀ (c : Cond) (sx : GoExpr) (g : G), WherePlain1 c → CondPlain f (condExpr sx g c).1
  | .bool _, sx, g, _ => by simp [condExpr, CondPlain, ValPlain]
  | .nested n items, sx, g, h => by
    rw [WherePlain1] at h
    simp only [condExpr, CondPlain]
    exact condList_plain items _ _ _ _ h
  | .field c, sx, g, h => by
    rw [WherePlain1] at h
    rw [condExpr]
    exact fieldExpr_plain hs h
  | .column c, sx, g, h => by
    rw [WherePlain1] at h
    rw [condExpr]
    exact columnExpr_plain hs h
  | .between b, sx, g, h => by
    rw [WherePlain1] at h
    simp only [condExpr, betweenExpr, CondPlain]
    exact ⟨h.1, boundExpr_plain hs h.2.1, boundExpr_plain hs h.2.2⟩
theorem condList_plain : ∀ (cs : List Cond) (sx : GoExpr) (g : G) (first : Bool) (b : Option Bool), WherePlains cs →
    CondsPlain f first (condList sx g first b cs).1
  | [], sx, g, first, b, _ => by simp [condList, CondsPlain]
  | c :: cs, sx, g, first, b, h => by
    rw [WherePlains] at h
    rw [condList]
    split
    · have := condList_plain cs sx g false (some ‹_›) h.2
      cases first with
      | false => exact this
      | true => exact condsPlain_true this
    · exact addItem_plain (condExpr_plain c sx g h.1) (condList_plain cs _ _ _ _ h.2)
end

theorem tableJoins_plain : ∀ (ds : List JoinDir) (cs : List (List JoinCond)) (g : G)
    (r : List (TableJoin Slot) × G), (∀ d ∈ ds, RelNamed d.relIdent) → (∀ l ∈ cs, WherePlains (l.map joinCond)) →
    tableJoins g ds cs = some r → ∀ j ∈ r.1, JoinPlain f j
  | [], cs, g, r, _, _, h => by simp only [tableJoins, Option.some.injEq] at h; subst h; simp
  | d :: ds, [], g, r, _, _, h => by simp [tableJoins] at h
  | d :: ds, c :: cs, g, r, hd, hc, h => by
    simp only [tableJoins, Option.map_eq_some_iff] at h
    obtain ⟨r', h, rfl⟩ := h
    intro j hj
    simp only [List.mem_cons] at hj
    rcases hj with rfl | hj
    · exact ⟨hd d (List.mem_cons_self ..), condList_plain hs _ _ _ _ _ (hc c (List.mem_cons_self ..))⟩
    · exact tableJoins_plain ds cs _ _ (fun d hm => hd d (List.mem_cons_of_mem _ hm))
        (fun l hl => hc l (List.mem_cons_of_mem _ hl)) h j hj

theorem buildJoins_plain {q : Query} (hn : Named q) {t : TargetInfo} (ht : InfoPlain t) {g g' : G}
    {js : List (TableJoin Slot)} (h : buildJoins q t g = some (js, g')) : ∀ j ∈ js, JoinPlain f j := by
  unfold buildJoins at h
  split at h
  · cases h; simp
  · next j hj => exact tableJoins_plain hs _ _ _ _ (hn.join j hj).2 ht.joins h

theorem pkeyConds_plain : ∀ (ws : List FieldWrite) (b : Bool) (g : G) (first : Bool), (∀ w ∈ ws, WritePlain w) →
    CondsPlain f first (pkeyConds b g first ws).1
  | [], b, g, first, _ => by simp [pkeyConds, CondsPlain]
  | w :: ws, b, g, first, h => by
    have hw := h w (List.mem_cons_self ..)
    simp only [pkeyConds, CondsPlain, CondPlain]
    refine ⟨?_, ⟨hw.1, ?_⟩, pkeyConds_plain ws _ _ _ fun w hm => h w (List.mem_cons_of_mem _ hm)⟩
    · cases first <;> simp
    · cases b
      · exact hs _
      · exact ⟨hw.1.2, hw.2.1⟩

theorem buildWhere_plain {q : Query} {t : TargetInfo} (ht : InfoPlain t) {g g' : G} {w : Option (BList Slot)}
    (h : buildWhere q t g = some (w, g')) : WherePlain f w := by
  unfold buildWhere at h
  split at h
  · cases h
    intro l hl
    cases hl
    exact pkeyConds_plain hs _ _ _ _ ht.pkeys
  · split at h
    · split at h
      · cases h
      · cases h
        intro l hl
        cases hl
        exact condList_plain hs _ _ _ _ _ ht.wher
    · cases h
      intro l hl
      cases hl

theorem limitValue_plain {g : G} {l : LimitField} : LimitPlain f (limitValue g l).1 := by
  unfold limitValue
  split
  · exact hs _
  · simp only
    split <;> trivial

theorem buildLimit_plain {q : Query} {g : G} : LimitPlain f (buildLimit q g).1 := by
  unfold buildLimit
  split
  · simp only
    split <;> trivial
  · exact limitValue_plain hs

theorem buildOffset_plain {q : Query} {g : G} : LimitPlain f (buildOffset q g).1 := by
  unfold buildOffset
  split
  · trivial
  · exact limitValue_plain hs

end

section
variable {α : Type} {f : α → Bytes}

theorem buildOrder_plain {q : Query} {rs : RelSpace} (hf : Fits q rs) : ∀ o ∈ buildOrder q, ColPlain o.column := by
  intro o ho
  unfold buildOrder at ho
  rw [List.mem_map] at ho
  obtain ⟨i, hi, rfl⟩ := ho
  cases hq : q.orderBy with
  | none => rw [hq] at hi; simp at hi
  | some l =>
    rw [hq] at hi
    exact ((hf.orderBy l hq).2 i hi).1

theorem buildConflict_plain {q : Query} {t : TargetInfo} (ht : InfoPlain t) :
    ∀ x, buildConflict q t = some x → ConflictPlain x := by
  intro x hx
  unfold buildConflict at hx
  split at hx
  · cases hx
  · rw [Option.map_eq_some_iff] at hx
    obtain ⟨c, hc, rfl⟩ := hx
    have := ht.conflict c hc
    refine ⟨this.1, ?_⟩
    intro n hn
    rw [List.mem_map] at hn
    obtain ⟨k, hk, rfl⟩ := hn
    exact this.2 k hk

theorem writeCols_plain {t : TargetInfo} (ht : InfoPlain t) : ∀ n ∈ t.writes.map (fun w => w.column.name), Ident n := by
  intro n hn
  rw [List.mem_map] at hn
  obtain ⟨w, hw, rfl⟩ := hn
  exact (ht.writes w hw).2.2

theorem tableExprs_plain {q : Query} (hn : Named q) {js : List (TableJoin α)} (hj : ∀ j ∈ js, JoinPlain f j)
    {l : List (TableExpr α)} (h : tableExprs q js = some l) : ∀ x ∈ l, TablePlain f x := by
  unfold tableExprs at h
  split at h
  · cases h; simp
  · next j hq =>
    rw [Option.map_eq_some_iff] at h
    obtain ⟨r, hr, rfl⟩ := h
    intro x hx
    rcases List.mem_cons.1 hx with rfl | hx
    · exact (hn.join j hq).1 r hr
    · rw [List.mem_map] at hx
      obtain ⟨k, hk, rfl⟩ := hx
      exact hj k hk

theorem updateCols_plain {q : Query} {t : TargetInfo} (ht : InfoPlain t) : ValsPlain f (updateCols (α := α) q t) := by
  intro v hv
  unfold updateCols at hv
  rw [List.mem_map] at hv
  obtain ⟨w, hw, rfl⟩ := hv
  exact (ht.writes w (List.mem_filter.1 hw).1).2.2

/-- What is asked of the clauses. -/
structure ClausesPlain (f : α → Bytes) (c : Clauses α) : Prop where
  joins : ∀ j ∈ c.joins, JoinPlain f j
  wher : WherePlain f c.wher
  limit : LimitPlain f c.limit
  offset : LimitPlain f c.offset

theorem wherePlain_none : WherePlain f none := by intro l h; cases h
theorem valsPlain_nil : ValsPlain f [] := by intro l h; cases h

theorem buildStmt_plain {q : Query} (hn : Named q) {rs : RelSpace} (hf : Fits q rs) {t : TargetInfo}
    (ht : InfoPlain t) {vals : List (VExpr α)} (hv : ValsPlain f vals) {c : Clauses α} (hc : ClausesPlain f c)
    {s : SQL α} (h : buildStmt q t vals c = some s) : StmtPlain f s.stmt ∧ TailPlain f s.tail := by
  have ho := buildOrder_plain hf
  have hout : ValsPlain f (outputVals (α := α) t) := outputVals_plain ht
  unfold buildStmt at h
  split at h
  · cases h
    unfold buildInsert
    simp only
    split
    · split
      · exact ⟨⟨hn.rel, writeCols_plain ht, by simp, by simp, valsPlain_nil⟩, buildConflict_plain ht, hout⟩
      · exact ⟨⟨hn.rel, writeCols_plain ht, by simp, buildConflict_plain ht, hout⟩, trivial⟩
    · exact ⟨⟨hn.rel, writeCols_plain ht, by intro l hl; cases hl; exact hv, buildConflict_plain ht, hout⟩, trivial⟩
  · simp only [buildUpdate, Option.map_eq_some_iff] at h
    obtain ⟨fr, hfr, rfl⟩ := h
    have hfr := tableExprs_plain hn hc.joins hfr
    have hvals : ValsPlain f (if q.isSliceUpdate then updateCols q t else vals) := by
      split
      · exact updateCols_plain ht
      · exact hv
    split
    · refine ⟨⟨hn.rel, writeCols_plain ht, hvals, ?_, wherePlain_none, valsPlain_nil⟩, ?_, hc.wher, valsPlain_nil⟩
      · intro x hx
        rcases List.mem_append.1 hx with hx | hx
        · exact hfr x hx
        · rw [List.mem_singleton] at hx; subst hx; trivial
      · intro cs hcs n hnm
        cases hcs
        rcases List.mem_append.1 hnm with hnm | hnm
        · exact writeCols_plain ht n hnm
        · rw [List.mem_map] at hnm
          obtain ⟨w, hw, rfl⟩ := hnm
          exact (ht.pkeys w (List.mem_filter.1 hw).1).2.2
    · split
      · exact ⟨⟨hn.rel, writeCols_plain ht, hvals, hfr, wherePlain_none, valsPlain_nil⟩, by simp, wherePlain_none, hout⟩
      · exact ⟨⟨hn.rel, writeCols_plain ht, hvals, hfr, hc.wher, hout⟩, trivial⟩
  · cases h
    exact ⟨⟨hout, hn.rel, hc.joins, hc.wher, ho, hc.limit, hc.offset⟩, trivial⟩
  · cases h
    unfold buildCount
    split
    · exact ⟨⟨hn.rel, hc.joins, hc.wher, ho, trivial, hc.offset⟩, trivial⟩
    · exact ⟨⟨hn.rel, hc.joins, wherePlain_none, by simp, trivial, trivial⟩, trivial⟩
  · cases h
    unfold buildExists
    simp only
    split
    · exact ⟨⟨hn.rel, hc.joins, hc.wher, ho, hc.limit, hc.offset⟩, trivial⟩
    · exact ⟨⟨hn.rel, hc.joins, wherePlain_none, by simp, trivial, trivial⟩, trivial⟩
  · cases h
    unfold buildExists
    simp only
    split
    · exact ⟨⟨hn.rel, hc.joins, hc.wher, ho, hc.limit, hc.offset⟩, trivial⟩
    · exact ⟨⟨hn.rel, hc.joins, wherePlain_none, by simp, trivial, trivial⟩, trivial⟩
  · simp only [buildDelete, Option.map_eq_some_iff] at h
    obtain ⟨us, hus, rfl⟩ := h
    exact ⟨⟨hn.rel, tableExprs_plain hn hc.joins hus, hc.wher, hout⟩, trivial⟩

end

/-! ### The text at run time -/

theorem whole_loop (pos : Int) : ∀ (n : Nat) (i : Int) (out x : Bytes), Whole out →
    inValueLoop pos n i out = some x → Whole x
  | 0, i, out, x, h, e => by simp only [inValueLoop, Option.some.injEq] at e; exact e ▸ h
  | n + 1, i, out, x, h, e => by
    simp only [inValueLoop, Option.bind_eq_bind, Option.bind_eq_some_iff] at e
    obtain ⟨o, ho, e⟩ := e
    refine whole_loop pos n _ _ x ?_ e
    have hr : ∃ k, o = ordinal k := by
      unfold ordinalAtInt ordinalAt at ho
      split at ho
      · split at ho
        · cases ho; exact ⟨_, rfl⟩
        · cases ho
      · cases ho
    obtain ⟨k, rfl⟩ := hr
    rw [List.append_assoc]
    exact (h.reads.append (y := b!"," ++ ordinal k) (by trivial)
      ((show Closed b!"," [.punct ','] by decide).append_reads (reads_ordinal k))).whole

/-- What stands for a value at run time makes sense by itself. -/
theorem slotText_whole (w : World) (c : Code) (s : Slot) : Whole ((Generator.slotText w c s).getD []) := by
  cases h : Generator.slotText w c s with
  | none => decide
  | some x =>
    cases s with
    | num n =>
      simp only [Generator.slotText] at h
      split at h
      · cases h; exact (reads_ordinal _).whole
      · cases h
    | slice k =>
      simp only [Generator.slotText, Option.bind_eq_some_iff] at h
      obtain ⟨l, _, p, _, h⟩ := h
      rw [inValueList] at h
      split at h
      · rw [Option.bind_eq_bind, Option.bind_eq_some_iff] at h
        obtain ⟨out, ho, h⟩ := h
        refine whole_loop p _ _ _ x ?_ h
        unfold ordinalAtInt ordinalAt at ho
        split at ho
        · split at ho
          · cases ho; exact (reads_ordinal _).whole
          · cases ho
        · cases ho
      · exact whole_loop p _ _ _ x (by decide) h

/-- The query comes from the analyzer, started with a cache of its own making, and has passed the checks. -/
theorem generate_plain {cat : Catalog} {q : Query} {t : TargetInfo} {c : Code} {env : Env} {cache : Cache} {n : Bytes}
    {fs : List Field} {s : Analysis.St} (hc : CacheNamed cache) (ha : analyzeQuery env cache n fs = .ok s) (hq : s.q = q)
    (hk : checkQuery cat q = .ok t) (hg : generate q t = some c) (hcat : CatPlain cat)
    (ht : ∀ x ∈ queryTexts q, Whole x) {f : Slot → Bytes} (hf : ∀ a, Whole (f a)) :
    StmtPlain f c.sql.stmt ∧ TailPlain f c.sql.tail ∧ ValsPlain f c.rowVals := by
  subst hq
  have hn := (analyzeQuery_named hc ha).1
  have hfit := analyzeQuery_fits ha
  have hi := checkQuery_plain hcat hn hfit ht hk
  obtain ⟨js, g1, w, g2, h1, h2, h3, _, _, h4⟩ := generate_split hg
  have hv := targetValues_plain' hf (q := s.q) hi
  have := buildStmt_plain (f := f) hn hfit hi hv.1 (c := _)
    ⟨buildJoins_plain hf hn hi h1, buildWhere_plain hf hi h2, buildLimit_plain hf, buildOffset_plain hf⟩ h3
  refine ⟨this.1, this.2, ?_⟩
  rw [h4]
  intro v hm
  rcases List.mem_append.1 hm with hm | hm
  · exact hv.1 v hm
  · exact hv.2 v hm

end Verif.Generator.Lex
