import Verif.Generator.PropsGram7

/- Property C89: the statement generated for an accepted query. -/
namespace Verif.Generator.Gram
open Verif.Analysis Verif.Postgres Verif.Generator.Lex Print

section
variable {f : Slot → Bytes} (hnum : ∀ n, AtomText (f (.num n))) (hlist : ∀ k, ListText (f (.slice k)))

theorem buildConflict_gram {q : Query} {t : TargetInfo} (ht : InfoFits q t) :
    ∀ x, buildConflict q t = some x → ConflictGram x := by
  intro x hx
  unfold buildConflict at hx
  split at hx
  · cases hx
  · rw [Option.map_eq_some_iff] at hx
    obtain ⟨c, hc, rfl⟩ := hx
    intro y hy
    exact ht.conflict c y hc hy

theorem buildOrder_gram {q : Query} {t : TargetInfo} (ht : InfoFits q t) :
    ∀ o ∈ buildOrder q, WordOk o.column.qualifier := by
  intro o ho
  rw [buildOrder, List.mem_map] at ho
  obtain ⟨i, hi, rfl⟩ := ho
  cases hq : q.orderBy with
  | none => simp [hq] at hi
  | some l => exact ht.order l hq i (by simpa [hq] using hi)

theorem tableExprs_gram {q : Query} {t : TargetInfo} (ht : InfoFits q t) {js : List (TableJoin Slot)}
    (hj : ∀ j ∈ js, JoinGram f j) {l : List (TableExpr Slot)} (h : tableExprs q js = some l) : TablesGram f l := by
  unfold tableExprs at h
  split at h
  · cases h; trivial
  · next j hq =>
    rw [Option.map_eq_some_iff] at h
    obtain ⟨r, hr, rfl⟩ := h
    refine ⟨ht.from_ j r hq hr, ?_⟩
    intro x hx
    rw [List.mem_map] at hx
    obtain ⟨y, hy, rfl⟩ := hx
    exact ⟨y, rfl, hj y hy⟩

/-- The clauses of the statement. -/
structure ClausesGram (c : Clauses Slot) : Prop where
  joins : ∀ j ∈ c.joins, JoinGram f j
  wher : WhereGram f c.wher
  limit : LimitGram f c.limit
  offset : LimitGram f c.offset

theorem mapSt_length {β γ : Type} {g : G → β → γ × G} : ∀ (xs : List β) (s : G), (mapSt g s xs).1.length = xs.length
  | [], _ => rfl
  | x :: xs, s => by simp only [mapSt, List.length_cons, mapSt_length xs]

theorem targetVals_length (q : Query) (t : TargetInfo) : (targetValues q t).vals.length = t.writes.length := by
  unfold targetValues
  simp only
  split <;> exact mapSt_length _ _

theorem buildStmt_gram {q : Query} {t : TargetInfo} (ht : InfoFits q t) (hf : q.filter = none)
    (hs : isInsertOrUpdateSlice q = false) {vals : List (VExpr Slot)} (hv : ValsGram f vals)
    (hl : vals.length = t.writes.length) {c : Clauses Slot} (hc : ClausesGram (f := f) c) {s : SQL Slot}
    (h : buildStmt q t vals c = some s) : StmtGram f s.stmt ∧ s.tail = .none ∧ s.closeFilter = false := by
  have ho := buildOrder_gram ht
  have hout : ValsGram f (outputVals (α := Slot) t) := outputVals_gram ht.reads
  unfold buildStmt at h
  split at h
  · next hk =>
    have hsl : q.rel.type.isSlice = false := by
      simpa [isInsertOrUpdateSlice, isInsertOrUpdate, hk] using hs
    have hw := ht.inserts hk
    cases h
    unfold buildInsert
    simp only [hsl, Bool.false_eq_true, if_false]
    refine ⟨⟨ht.rel, by simpa using hw, ⟨vals, rfl, ?_, hv⟩, buildConflict_gram ht, hout⟩, by trivial, by trivial⟩
    intro he
    rw [he] at hl
    exact hw (List.length_eq_zero_iff.1 hl.symm)
  · next hk =>
    have hsl : q.rel.type.isSlice = false := by
      simpa [isInsertOrUpdateSlice, isInsertOrUpdate, hk] using hs
    have hsu : q.isSliceUpdate = false := by simp [Query.isSliceUpdate, hsl]
    simp only [buildUpdate, Option.map_eq_some_iff, hsl, hsu, hf, Bool.false_eq_true, if_false, Option.isSome_none,
      false_and] at h
    obtain ⟨fr, hfr, rfl⟩ := h
    refine ⟨⟨ht.rel, ?_, ?_, hv, tableExprs_gram ht hc.joins hfr, hc.wher, hout⟩, by trivial, by trivial⟩
    · simpa using ht.updates hk
    · simpa using hl
  · cases h
    exact ⟨⟨hout, ht.rel, hc.joins, hc.wher, ho, hc.limit, hc.offset⟩, by trivial, by trivial⟩
  · cases h
    unfold buildCount
    simp only [hf, Option.isNone_none, if_true]
    exact ⟨⟨ht.rel, hc.joins, hc.wher, ho, trivial, hc.offset⟩, by trivial, by trivial⟩
  · cases h
    unfold buildExists
    simp only [hf, Option.isNone_none, if_true]
    exact ⟨⟨rfl, ht.rel, hc.joins, hc.wher, ho, hc.limit, hc.offset⟩, by trivial, by trivial⟩
  · cases h
    unfold buildExists
    simp only [hf, Option.isNone_none, if_true]
    exact ⟨⟨rfl, ht.rel, hc.joins, hc.wher, ho, hc.limit, hc.offset⟩, by trivial, by trivial⟩
  · simp only [buildDelete, Option.map_eq_some_iff] at h
    obtain ⟨us, hus, rfl⟩ := h
    exact ⟨⟨ht.rel, tableExprs_gram ht hc.joins hus, hc.wher, hout⟩, by trivial, by trivial⟩

theorem buildStmt_rowed {q : Query} {t : TargetInfo} (ht : InfoFits q t)
    (hs : isInsertOrUpdateSlice q = true) {vals : List (VExpr Slot)} {c : Clauses Slot}
    (hc : ClausesGram (f := f) c) {s : SQL Slot} (h : buildStmt q t vals c = some s) : RowedGram f s.stmt s.tail := by
  have hout : ValsGram f (outputVals (α := Slot) t) := outputVals_gram ht.reads
  simp only [isInsertOrUpdateSlice, Bool.and_eq_true] at hs
  obtain ⟨hk, hsl⟩ := hs
  unfold buildStmt at h
  split at h
  · next hk =>
    have hw := ht.inserts hk
    cases h
    unfold buildInsert
    simp only [hsl, if_true]
    split
    · exact ⟨ht.rel, by simpa using hw, buildConflict_gram ht, hout⟩
    · next hno =>
      rw [not_or] at hno
      have h1 : outputVals (α := Slot) t = [] := by
        rw [← List.length_eq_zero_iff]; omega
      have h2 : buildConflict q t = none := by simpa using hno.2
      rw [h1, h2]
      exact ⟨ht.rel, by simpa using hw⟩
  · next hk =>
    obtain ⟨hj, hd⟩ := ht.many hk hsl
    have hsu : q.isSliceUpdate = true := by simp [Query.isSliceUpdate, hsl, hk]
    simp only [buildUpdate, Option.map_eq_some_iff, hsl, hsu, if_true, tableExprs, hj, Option.some.injEq] at h
    obtain ⟨fr, rfl, rfl⟩ := h
    have hw := ht.updates hk
    have hfil : (t.writes.filter fun w => !canUseDefault q w.field) = t.writes := by
      rw [List.filter_eq_self]
      intro w hw
      simp [hd w hw]
    refine ⟨ht.rel, by simpa using hw, by simp [updateCols, hfil], ?_, ?_, hc.wher, ?_⟩
    · intro v hv
      rw [updateCols, List.mem_map] at hv
      obtain ⟨w, _, rfl⟩ := hv
      trivial
    · intro he
      have := congrArg List.length he
      simp at this
      rw [this.1] at hw
      simp at hw
    · intro v hv; simp at hv
  all_goals (next hk' => rw [isInsertOrUpdate, hk'] at hk; simp at hk)

include hnum hlist in
theorem clauses_gram {q : Query} {t : TargetInfo} (ht : InfoFits q t) {g g1 g2 : G} {js : List (TableJoin Slot)}
    {w : Option (BList Slot)} (h1 : buildJoins q t g = some (js, g1)) (h2 : buildWhere q t g1 = some (w, g2)) :
    ClausesGram (f := f) { joins := js, wher := w, limit := (buildLimit q g2).1,
                           offset := (buildOffset q (buildLimit q g2).2).1 } :=
  ⟨buildJoins_gram hnum hlist ht h1, buildWhere_gram hnum hlist ht h2, buildLimit_gram hnum, buildOffset_gram hnum⟩

include hnum hlist in
theorem generate_gram {q : Query} {t : TargetInfo} {c : Code} (ht : InfoFits q t) (hf : q.filter = none)
    (hs : isInsertOrUpdateSlice q = false) (h : generate q t = some c) :
    StmtGram f c.sql.stmt ∧ c.sql.tail = .none ∧ c.sql.closeFilter = false := by
  obtain ⟨js, g1, w, g2, h1, h2, h3, _, _, _⟩ := generate_split h
  exact buildStmt_gram ht hf hs (targetValues_gram hnum ht.writes).1 (targetVals_length q t)
    (clauses_gram hnum hlist ht h1 h2) h3

include hnum hlist in
theorem generate_rowed {q : Query} {t : TargetInfo} {c : Code} (ht : InfoFits q t)
    (hs : isInsertOrUpdateSlice q = true) (h : generate q t = some c) : RowedGram f c.sql.stmt c.sql.tail := by
  obtain ⟨js, g1, w, g2, h1, h2, h3, _, _, _⟩ := generate_split h
  exact buildStmt_rowed ht hs (clauses_gram hnum hlist ht h1 h2) h3

end

theorem ordinal_atom (n : Nat) : AtomText (ordinal n) := by
  unfold AtomText
  rw [show lex (ordinal n) = [.param (itoa n)] from (reads_ordinal n).lex]
  rfl

theorem generate_cells {q : Query} {t : TargetInfo} {c : Code} (ht : InfoFits q t)
    (hs : isInsertOrUpdateSlice q = true) (h : generate q t = some c) : CellsGram c.rowVals := by
  obtain ⟨js, g1, w, g2, h1, h2, h3, _, _, h4⟩ := generate_split h
  have hw : t.writes ≠ [] := by
    simp only [isInsertOrUpdateSlice, isInsertOrUpdate, Bool.and_eq_true, Bool.or_eq_true, decide_eq_true_eq] at hs
    rcases hs.1 with hk | hk
    · exact ht.inserts hk
    · have := ht.updates hk
      rintro he
      rw [he] at this
      simp at this
  rw [h4]
  constructor
  · intro he
    have := congrArg List.length he
    rw [List.length_append, targetVals_length, List.length_nil] at this
    exact hw (List.length_eq_zero_iff.1 (by omega))
  · intro v hv k
    have := targetValues_gram (f := fun _ => ordinal (k + 1)) (fun _ => ordinal_atom _) (q := q) ht.writes
    rcases List.mem_append.1 hv with hv | hv
    · exact this.1 v hv
    · exact this.2 v hv

/-! ### The texts at run time -/

section
variable {α : Type} {f g : α → Bytes}

theorem valGram_congr : ∀ {x : VExpr α}, (∀ a ∈ x.slots, f a = g a) → ValGram f x → ValGram g x
  | .default, _, h | .xcol _, _, h | .col _, _, h | .lit _, _, h => h
  | .param a, hs, h => by
    rw [ValGram] at h ⊢
    rw [← hs a (by simp [VExpr.slots])]
    exact h
  | .cast x t, hs, h => ⟨valGram_congr (x := x) hs h.1, h.2⟩
  | .call fn x, hs, h => ⟨h.1, valGram_congr (x := x) hs h.2⟩
  | .nullif x y, hs, h | .coalesce x y, hs, h =>
    ⟨valGram_congr (x := x) (fun a ha => hs a (List.mem_append_left _ ha)) h.1,
      valGram_congr (x := y) (fun a ha => hs a (List.mem_append_right _ ha)) h.2⟩
  | .quantified _ _, _, h | .absent, _, h => h.elim

theorem rhsGram_congr {op : BinOp} {x : VExpr α} (hs : ∀ a ∈ x.slots, f a = g a) (h : RhsGram f op x) : RhsGram g op x := by
  cases x with
  | quantified q x => exact ⟨h.1, valGram_congr (x := x) hs h.2⟩
  | _ => exact valGram_congr hs h

mutual
theorem condGram_congr : ∀ {x : BExpr α}, (∀ a ∈ x.slots, f a = g a) → CondGram f x → CondGram g x
  | .binary op l r, hs, h => by
    simp only [BExpr.slots] at hs
    rw [CondGram] at h ⊢
    exact ⟨valGram_congr (fun a ha => hs a (List.mem_append_left _ ha)) h.1,
      rhsGram_congr (fun a ha => hs a (List.mem_append_right _ ha)) h.2⟩
  | .inList n x a, hs, h => by
    simp only [BExpr.slots] at hs
    rw [CondGram] at h ⊢
    refine ⟨valGram_congr (fun a ha => hs a (List.mem_append_left _ ha)) h.1, ?_⟩
    rw [← hs a (by simp)]
    exact h.2
  | .truth _ _ x, hs, h => by
    simp only [BExpr.slots] at hs
    rw [CondGram] at h ⊢
    exact valGram_congr hs h
  | .null _ x, hs, h => by
    simp only [BExpr.slots] at hs
    rw [CondGram] at h ⊢
    exact valGram_congr hs h
  | .bare x, hs, h => by
    simp only [BExpr.slots] at hs
    rw [CondGram] at h ⊢
    exact valGram_congr hs h
  | .between x lo hi, hs, h => by
    simp only [BExpr.slots] at hs
    rw [CondGram] at h ⊢
    exact ⟨valGram_congr (fun a ha => hs a (by simp [ha])) h.1, valGram_congr (fun a ha => hs a (by simp [ha])) h.2.1,
      valGram_congr (fun a ha => hs a (by simp [ha])) h.2.2⟩
  | .group l, hs, h => by
    simp only [BExpr.slots] at hs
    rw [CondGram] at h ⊢
    exact condsGram_congr hs h
theorem condsGram_congr : ∀ {l : BList α}, (∀ a ∈ l.slots, f a = g a) → CondsGram f l → CondsGram g l
  | .nil, _, h => by rw [CondsGram] at h; exact h.elim
  | .cons k x rest, hs, h => by
    simp only [BList.slots] at hs
    rw [CondsGram] at h ⊢
    exact ⟨h.1, condGram_congr (fun a ha => hs a (by simp [ha])) h.2.1,
      restGram_congr (fun a ha => hs a (by simp [ha])) h.2.2⟩
theorem restGram_congr : ∀ {l : BList α}, (∀ a ∈ l.slots, f a = g a) → RestGram f l → RestGram g l
  | .nil, _, _ => by rw [RestGram]; trivial
  | .cons k x rest, hs, h => by
    simp only [BList.slots] at hs
    rw [RestGram] at h ⊢
    exact ⟨h.1, condGram_congr (fun a ha => hs a (by simp [ha])) h.2.1,
      restGram_congr (fun a ha => hs a (by simp [ha])) h.2.2⟩
end

theorem valsGram_congr {l : List (VExpr α)} (hs : ∀ a ∈ l.flatMap VExpr.slots, f a = g a) (h : ValsGram f l) :
    ValsGram g l := fun v hv => valGram_congr (fun a ha => hs a (List.mem_flatMap.2 ⟨v, hv, ha⟩)) (h v hv)

theorem whereGram_congr {w : Option (BList α)} (hs : ∀ a ∈ whereSlots w, f a = g a) (h : WhereGram f w) :
    WhereGram g w := by
  intro l hl
  subst hl
  exact condsGram_congr (fun a ha => hs a (by simpa [whereSlots] using ha)) (h l rfl)

theorem joinGram_congr {j : TableJoin α} (hs : ∀ a ∈ j.cond.slots, f a = g a) (h : JoinGram f j) : JoinGram g j := by
  obtain ⟨h1, h2⟩ := h
  refine ⟨h1, ?_⟩
  split at h2
  · next ht => rw [if_pos ht]; exact h2
  · next ht => rw [if_neg ht]; exact condsGram_congr hs h2

theorem limitGram_congr {l : LimitVal α} (hs : ∀ a ∈ l.slots, f a = g a) (h : LimitGram f l) : LimitGram g l := by
  cases l with
  | param a =>
    rw [LimitGram] at h ⊢
    rw [← hs a (by simp [LimitVal.slots])]
    exact h
  | _ => trivial

theorem tablesGram_congr {l : List (TableExpr α)} (hs : ∀ a ∈ l.flatMap TableExpr.slots, f a = g a)
    (h : TablesGram f l) : TablesGram g l := by
  cases l with
  | nil => trivial
  | cons t l =>
    cases t with
    | rel r =>
      refine ⟨h.1, ?_⟩
      intro x hx
      obtain ⟨j, rfl, hj⟩ := h.2 x hx
      refine ⟨j, rfl, joinGram_congr (fun a ha => hs a ?_) hj⟩
      exact List.mem_flatMap.2 ⟨_, List.mem_cons_of_mem _ hx, ha⟩
    | _ => exact h.elim

theorem selGram_congr {t : RelIdent} {js : List (TableJoin α)} {w : Option (BList α)} {o : List OrderBy}
    {l k : LimitVal α} (h1 : ∀ a ∈ js.flatMap (fun j => j.cond.slots), f a = g a) (h2 : ∀ a ∈ whereSlots w, f a = g a)
    (h3 : ∀ a ∈ l.slots, f a = g a) (h4 : ∀ a ∈ k.slots, f a = g a) (h : SelGram f t js w o l k) :
    SelGram g t js w o l k :=
  ⟨h.1, fun j hj => joinGram_congr (fun a ha => h1 a (List.mem_flatMap.2 ⟨j, hj, ha⟩)) (h.2.1 j hj),
    whereGram_congr h2 h.2.2.1, h.2.2.2.1, limitGram_congr h3 h.2.2.2.2.1, limitGram_congr h4 h.2.2.2.2.2⟩

theorem stmtGram_congr {s : Stmt α} (hs : ∀ a ∈ s.slots, f a = g a) (h : StmtGram f s) : StmtGram g s := by
  cases s with
  | insert t cs o vs c r =>
    obtain ⟨h1, h2, ⟨l, rfl, h3, h4⟩, h5, h6⟩ := h
    simp only [Stmt.slots, List.mem_append, or_imp, forall_and, Option.getD_some] at hs
    exact ⟨h1, h2, ⟨l, rfl, h3, valsGram_congr hs.1 h4⟩, h5, valsGram_congr hs.2 h6⟩
  | update t cs vs fr w r =>
    obtain ⟨h1, h2, h3, h4, h5, h6, h7⟩ := h
    simp only [Stmt.slots, List.mem_append, or_imp, forall_and] at hs
    exact ⟨h1, h2, h3, valsGram_congr hs.1.1.1 h4, tablesGram_congr hs.1.1.2 h5, whereGram_congr hs.1.2 h6,
      valsGram_congr hs.2 h7⟩
  | select cs t js w o l k =>
    simp only [Stmt.slots, List.mem_append, or_imp, forall_and] at hs
    exact ⟨valsGram_congr hs.1.1.1.1 h.1, selGram_congr hs.1.1.1.2 hs.1.1.2 hs.1.2 hs.2 h.2⟩
  | count t js w o k =>
    simp only [Stmt.slots, List.mem_append, or_imp, forall_and] at hs
    exact selGram_congr hs.1.1 hs.1.2 (by simp [LimitVal.slots]) hs.2 h
  | exists_ n b t js w o l k =>
    simp only [Stmt.slots, List.mem_append, or_imp, forall_and] at hs
    exact ⟨h.1, selGram_congr hs.1.1.1 hs.1.1.2 hs.1.2 hs.2 h.2⟩
  | delete t us w r =>
    obtain ⟨h1, h2, h3, h4⟩ := h
    simp only [Stmt.slots, List.mem_append, or_imp, forall_and] at hs
    exact ⟨h1, tablesGram_congr hs.1.1 h2, whereGram_congr hs.1.2 h3, valsGram_congr hs.2 h4⟩

theorem rowedGram_congr {s : Stmt α} {t : Tail α} (hs : ∀ a ∈ s.slots ++ t.slots, f a = g a) (h : RowedGram f s t) :
    RowedGram g s t := by
  unfold RowedGram at h
  split at h
  · obtain ⟨h1, h2, h3, h4⟩ := h
    simp only [Stmt.slots, Tail.slots, List.mem_append, or_imp, forall_and] at hs
    exact ⟨h1, h2, h3, valsGram_congr hs.2 h4⟩
  · exact h
  · obtain ⟨h1, h2, h3, h4, h5, h6, h7⟩ := h
    simp only [Stmt.slots, Tail.slots, List.mem_append, or_imp, forall_and] at hs
    exact ⟨h1, h2, h3, valsGram_congr hs.1.1.1.1 h4, h5, whereGram_congr hs.2.1 h6, valsGram_congr hs.2.2 h7⟩
  · exact h.elim

end

end Verif.Generator.Gram
