import Verif.Generator.PropsGoScope3

/- Property C106: what is known about the code of a query that is accepted. -/
namespace Verif.Generator.Scoped
open Verif.Analysis Verif.Postgres Verif.Generator.Print GoBlk

/-! ### The numbers of the lists -/

/-- The lists of `s` are among those of `g'`, which are not fewer than those of `g`. -/
def Grow (g g' : G) (s : List Slot) : Prop :=
  g.slices.length ≤ g'.slices.length ∧ ∀ k, .slice k ∈ s → 1 ≤ k ∧ k ≤ g'.slices.length

theorem Grow.append {g g1 g2 : G} {s s' : List Slot} (h : Grow g g1 s) (h' : Grow g1 g2 s') : Grow g g2 (s ++ s') := by
  refine ⟨Nat.le_trans h.1 h'.1, ?_⟩
  intro k hk
  rcases List.mem_append.1 hk with hk | hk
  · have := h.2 k hk; exact ⟨this.1, Nat.le_trans this.2 h'.1⟩
  · exact h'.2 k hk

theorem Grow.of_no {g g' : G} {s : List Slot} (h : g'.slices = g.slices) (hs : ∀ k, .slice k ∉ s) : Grow g g' s :=
  ⟨by rw [h]; exact Nat.le_refl _, fun k hk => absurd hk (hs k)⟩

theorem pred_grow (sx : GoExpr) (n : Bytes) (g : G) (p : Option Pred) (l r : VExpr Slot) (hl : ∀ k, .slice k ∉ l.slots)
    (hr : ∀ k, .slice k ∉ r.slots) : Grow g (predExpr sx n g p l r).2 (predExpr sx n g p l r).1.slots := by
  unfold predExpr
  cases predForm p <;> simp only [formExpr, formState, BExpr.slots]
  case inList b =>
    refine ⟨by simp, ?_⟩
    intro k hk
    rcases List.mem_append.1 hk with hk | hk
    · exact absurd hk (hl k)
    · simp at hk; subst hk; simp
  all_goals refine Grow.of_no rfl ?_
  · intro k hk
    rcases List.mem_append.1 hk with hk | hk
    · exact hl k hk
    · exact hr k hk
  all_goals exact hl

theorem cond_grow_field (sx : GoExpr) (g : G) (f : FieldConditional) : Grow g (fieldExpr sx g f).2 (fieldExpr sx g f).1.slots := by
  refine pred_grow sx f.fieldName (freshParam g).2 f.pred _ _ ?_ ?_
  · intro k; simp [addCall_slots, VExpr.slots]
  · intro k; simp [addQuant_slots, addCall_slots, VExpr.slots, freshParam]

theorem rhs_slots (r : Rhs) : (rhsExpr (α := Slot) r).slots = [] := by
  cases r <;> simp only [rhsExpr] <;> first | rfl | (split <;> rfl)

theorem cond_grow_column (sx : GoExpr) (g : G) (c : ColumnConditional) :
    Grow g (columnExpr sx g c).2 (columnExpr sx g c).1.slots := by
  refine pred_grow sx [] g c.pred _ _ ?_ ?_
  · intro k; simp [VExpr.slots]
  · intro k; simp [addQuant_slots, rhs_slots]

theorem bound_grow (g : G) (b : RangeBound) : Grow g (boundExpr g b).2 (boundExpr g b).1.slots := by
  cases b <;> exact Grow.of_no rfl (by intro k; simp [boundExpr, VExpr.slots, freshParam])

theorem addItem_grow {g g1 g2 : G} {first : Bool} {boolean : Option Bool} {x : BExpr Slot} {rest : BList Slot}
    (h : Grow g g1 x.slots) (h' : Grow g1 g2 rest.slots) : Grow g g2 (addItem first boolean x rest).slots := by
  have := h.append h'
  refine ⟨this.1, fun k hk => this.2 k ?_⟩
  unfold addItem at hk
  split at hk
  · simpa [BList.slots] using hk
  · split at hk
    · simpa [BList.slots] using hk
    · simpa [BList.slots] using hk
    · exact List.mem_append_right _ hk

mutual
theorem cond_grow (sx : GoExpr) (g : G) : ∀ c : Cond, Grow g (condExpr sx g c).2 (condExpr sx g c).1.slots
  | .bool _ => by simp only [condExpr]; exact Grow.of_no rfl (by simp [BExpr.slots, VExpr.slots])
  | .nested n items => by
    simp only [condExpr, BExpr.slots]
    exact conds_grow (.sel sx n) g true none items
  | .field f => by simp only [condExpr]; exact cond_grow_field sx g f
  | .column c => by simp only [condExpr]; exact cond_grow_column sx g c
  | .between b => by
    simp only [condExpr, betweenExpr, BExpr.slots, VExpr.slots, List.nil_append]
    exact (bound_grow g b.lower).append (bound_grow _ b.upper)
theorem conds_grow (sx : GoExpr) (g : G) (first : Bool) (boolean : Option Bool) :
    ∀ cs : List Cond, Grow g (condList sx g first boolean cs).2 (condList sx g first boolean cs).1.slots
  | [] => by simp only [condList]; exact Grow.of_no rfl (by simp [BList.slots])
  | c :: cs => by
    simp only [condList]
    cases isBool c with
    | some b => exact conds_grow sx g false (some b) cs
    | none => exact addItem_grow (cond_grow sx g c) (conds_grow sx _ false boolean cs)
end

theorem joins_grow : ∀ (ds : List JoinDir) (cs : List (List JoinCond)) (g : G) (r : List (TableJoin Slot) × G),
    tableJoins g ds cs = some r → Grow g r.2 (r.1.flatMap fun j => j.cond.slots)
  | [], _, g, r, h => by
    simp only [tableJoins, Option.some.injEq] at h
    subst h
    exact Grow.of_no rfl (by simp)
  | _ :: _, [], g, r, h => by simp [tableJoins] at h
  | d :: ds, c :: cs, g, r, h => by
    simp only [tableJoins, Option.map_eq_some_iff] at h
    obtain ⟨r', h', rfl⟩ := h
    simp only [List.flatMap_cons]
    exact (conds_grow noSel g true none _).append (joins_grow ds cs _ r' h')

theorem fieldParam_no (g : G) (i k : Nat) : (fieldParam g i).1 ≠ .slice k ∧ (fieldParam g i).2.slices = g.slices := by
  unfold fieldParam
  split <;> simp

theorem pkeys_grow : ∀ (l : List FieldWrite) (slice : Bool) (g : G) (first : Bool),
    (pkeyConds slice g first l).2.slices = g.slices ∧ ∀ k, .slice k ∉ (pkeyConds slice g first l).1.slots
  | [], slice, g, first => by simp [pkeyConds, BList.slots]
  | w :: ws, slice, g, first => by
    obtain ⟨h1, h2⟩ := pkeys_grow ws slice (fieldParam g w.idx).2 false
    simp only [pkeyConds, BList.slots, BExpr.slots, VExpr.slots, List.nil_append]
    refine ⟨h1.trans (fieldParam_no g w.idx 0).2, ?_⟩
    intro k hk
    rcases List.mem_append.1 hk with hk | hk
    · cases slice <;> simp [VExpr.slots] at hk
      exact (fieldParam_no g w.idx k).1 hk.symm
    · exact h2 k hk

theorem where_grow {q : Query} {t : TargetInfo} {g : G} {w : Option (BList Slot)} {g' : G}
    (h : buildWhere q t g = some (w, g')) : Grow g g' (whereSlots w) := by
  unfold buildWhere at h
  split at h
  · simp only [Option.some.injEq, Prod.mk.injEq] at h
    obtain ⟨rfl, rfl⟩ := h
    have := pkeys_grow t.pkeys q.rel.type.isSlice g true
    exact Grow.of_no this.1 this.2
  · split at h
    · split at h
      · cases h
      · simp only [Option.some.injEq, Prod.mk.injEq] at h
        obtain ⟨rfl, rfl⟩ := h
        exact conds_grow _ _ _ _ _
    · simp only [Option.some.injEq, Prod.mk.injEq] at h
      obtain ⟨rfl, rfl⟩ := h
      exact Grow.of_no rfl (by simp [whereSlots])

theorem limitValue_no (g : G) (l : LimitField) (k : Nat) : .slice k ∉ (limitValue g l).1.slots ∧ (limitValue g l).2.slices = g.slices := by
  unfold limitValue
  split
  · simp [freshParam, LimitVal.slots]
  · split <;> simp [LimitVal.slots]

theorem limit_no (q : Query) (g : G) (k : Nat) : .slice k ∉ (buildLimit q g).1.slots ∧ (buildLimit q g).2.slices = g.slices := by
  unfold buildLimit
  split
  · split <;> simp [LimitVal.slots]
  · exact limitValue_no _ _ k

theorem offset_no (q : Query) (g : G) (k : Nat) : .slice k ∉ (buildOffset q g).1.slots ∧ (buildOffset q g).2.slices = g.slices := by
  unfold buildOffset
  split
  · simp [LimitVal.slots]
  · exact limitValue_no _ _ k

theorem writeVal_no (q : Query) (g : G) (w : FieldWrite) (k : Nat) :
    .slice k ∉ (writeVal q g w).1.slots ∧ (writeVal q g w).2.slices = g.slices := by
  have h := fieldParam_no g w.idx k
  unfold writeVal
  split
  · simp [VExpr.slots]
  · simp only
    refine ⟨?_, h.2⟩
    split
    · rw [addNullif_slots]; simp [VExpr.slots, Ne.symm h.1]
    · split <;> simp [VExpr.slots, Ne.symm h.1]

theorem mapSt_no {β : Type} (f : G → β → VExpr Slot × G)
    (hf : ∀ g x k, .slice k ∉ (f g x).1.slots ∧ (f g x).2.slices = g.slices) :
    ∀ (l : List β) (g : G), (∀ k, .slice k ∉ (mapSt f g l).1.flatMap VExpr.slots) ∧ (mapSt f g l).2.slices = g.slices
  | [], g => by simp [mapSt]
  | x :: xs, g => by
    obtain ⟨h1, h2⟩ := mapSt_no f hf xs (f g x).2
    simp only [mapSt, List.flatMap_cons]
    refine ⟨?_, h2.trans (hf g x 0).2⟩
    intro k hk
    rcases List.mem_append.1 hk with hk | hk
    · exact (hf g x k).1 hk
    · exact h1 k hk

theorem values_no (q : Query) (t : TargetInfo) :
    (∀ k, .slice k ∉ (targetValues q t).vals.flatMap VExpr.slots) ∧ (targetValues q t).g.slices = [] := by
  have h := mapSt_no (writeVal q) (writeVal_no q) t.writes {}
  unfold targetValues
  simp only
  split
  · have h2 := mapSt_no pkeyVal (fun g w k => by
      have := fieldParam_no g w.idx k
      exact ⟨by simp [pkeyVal, VExpr.slots, Ne.symm this.1], this.2⟩) (inputPKeys t) (mapSt (writeVal q) {} t.writes).2
    exact ⟨h.1, h2.2.trans h.2⟩
  · exact h

theorem read_slots (r : FieldRead) : (readVal (α := Slot) r).slots = [] := by
  unfold readVal
  split
  · unfold addCoalesce
    split
    · rfl
    · split
      · rfl
      · split <;> rfl
  · rfl

theorem output_slots (t : TargetInfo) : (outputVals (α := Slot) t).flatMap VExpr.slots = [] := by
  simp only [outputVals, List.flatMap_map, read_slots]
  simp

/-- The slots of a statement come from its parts. -/
theorem stmt_slots {q : Query} {t : TargetInfo} {vals : List (VExpr Slot)} {c : Clauses Slot} {s : SQL Slot}
    (h : buildStmt q t vals c = some s) {x : Slot} (hx : x ∈ s.stmt.slots ∨ x ∈ s.tail.slots) :
    x ∈ vals.flatMap VExpr.slots ∨ (x ∈ c.joins.flatMap fun j => j.cond.slots) ∨ x ∈ whereSlots c.wher ∨ x ∈ c.limit.slots ∨
      x ∈ c.offset.slots := by
  have ho := output_slots t
  have htab : ∀ fr, tableExprs q c.joins = some fr → fr.flatMap TableExpr.slots = [] ∨
      fr.flatMap TableExpr.slots = c.joins.flatMap fun j => j.cond.slots := by
    intro fr h
    unfold tableExprs at h
    split at h
    · simp only [Option.some.injEq] at h; subst h; exact .inl rfl
    · simp only [Option.map_eq_some_iff] at h
      obtain ⟨r, _, rfl⟩ := h
      right
      simp [List.flatMap_cons, TableExpr.slots, List.flatMap_map]
  have hu : (updateCols (α := Slot) q t).flatMap VExpr.slots = [] := by
    simp [updateCols, List.flatMap_map, VExpr.slots]
  unfold buildStmt at h
  split at h
  · simp only [Option.some.injEq] at h
    subst h
    unfold buildInsert at hx
    simp only at hx
    split at hx
    · split at hx <;> simp [Stmt.slots, Tail.slots, ho] at hx
    · simp [Stmt.slots, Tail.slots, ho] at hx
      exact .inl (by simpa using hx)
  · simp only [buildUpdate, Option.map_eq_some_iff] at h
    obtain ⟨fr, hfr, rfl⟩ := h
    have hv : ∀ y, y ∈ (if q.isSliceUpdate then updateCols q t else vals).flatMap VExpr.slots → y ∈ vals.flatMap VExpr.slots := by
      intro y hy
      split at hy
      · rw [hu] at hy; cases hy
      · exact hy
    have hf : ∀ y, y ∈ fr.flatMap TableExpr.slots → y ∈ c.joins.flatMap fun j => j.cond.slots := by
      intro y hy
      rcases htab fr hfr with h | h <;> rw [h] at hy
      · cases hy
      · exact hy
    have hv := hv x
    have hf := hf x
    split at hx
    · simp only [Stmt.slots, Tail.slots, List.mem_append, List.flatMap_append, List.flatMap_nil, List.flatMap_cons, TableExpr.slots,
        whereSlots, List.not_mem_nil] at hx
      simp only [whereSlots]
      simp at hx
      grind
    · split at hx
      · simp only [Stmt.slots, Tail.slots, List.mem_append, ho, List.flatMap_nil, whereSlots, List.not_mem_nil] at hx
        simp at hx
        grind
      · simp only [Stmt.slots, Tail.slots, List.mem_append, ho, List.not_mem_nil] at hx
        grind
  · simp only [Option.some.injEq] at h
    subst h
    simp only [Stmt.slots, Tail.slots, List.mem_append, ho, List.not_mem_nil] at hx
    grind
  · simp only [Option.some.injEq] at h
    subst h
    unfold buildCount at hx
    split at hx
    · simp only [Stmt.slots, Tail.slots, List.mem_append, List.not_mem_nil] at hx
      grind
    · simp [Stmt.slots, Tail.slots, whereSlots, LimitVal.slots] at hx
      exact .inr (.inl (by simpa using hx))
  · simp only [Option.some.injEq] at h
    subst h
    unfold buildExists at hx
    simp only at hx
    split at hx
    · simp only [Stmt.slots, Tail.slots, List.mem_append, List.not_mem_nil] at hx
      grind
    · simp [Stmt.slots, Tail.slots, whereSlots, LimitVal.slots] at hx
      exact .inr (.inl (by simpa using hx))
  · simp only [Option.some.injEq] at h
    subst h
    unfold buildExists at hx
    simp only at hx
    split at hx
    · simp only [Stmt.slots, Tail.slots, List.mem_append, List.not_mem_nil] at hx
      grind
    · simp [Stmt.slots, Tail.slots, whereSlots, LimitVal.slots] at hx
      exact .inr (.inl (by simpa using hx))
  · simp only [buildDelete, Option.map_eq_some_iff] at h
    obtain ⟨fr, hfr, rfl⟩ := h
    simp only [Stmt.slots, Tail.slots, List.mem_append, ho, List.not_mem_nil, or_false] at hx
    rcases htab fr hfr with h | h <;> rw [h] at hx <;> grind

theorem code_slots {q : Query} {t : TargetInfo} {c : Code} (h : generate q t = some c) :
    ∀ k, .slice k ∈ c.sql.stmt.slots ∨ .slice k ∈ c.sql.tail.slots → 1 ≤ k ∧ k ≤ c.g.slices.length := by
  obtain ⟨js, g1, w, g2, hj, hb, hs, hg, _, _⟩ := generate_split h
  intro k hk
  have hgj : Grow (targetValues q t).g g1 (js.flatMap fun j => j.cond.slots) := by
    unfold buildJoins at hj
    split at hj
    · simp only [Option.some.injEq, Prod.mk.injEq] at hj
      obtain ⟨rfl, rfl⟩ := hj
      exact Grow.of_no rfl (by simp)
    · exact joins_grow _ _ _ _ hj
  have hgw := where_grow hb
  have hl := limit_no q g2 k
  have hof := offset_no q (buildLimit q g2).2 k
  have hsl : c.g.slices = g2.slices := by rw [hg, hof.2, hl.2]
  rw [hsl]
  have hall := hgj.append hgw
  rcases stmt_slots hs hk with h' | h' | h' | h' | h'
  · exact absurd h' ((values_no q t).1 k)
  · exact hall.2 k (List.mem_append_left _ h')
  · exact hall.2 k (List.mem_append_right _ h')
  · exact absurd h' hl.1
  · exact absurd h' hof.1

/-! ### Variables of the arguments -/

theorem fieldCondArgs_idents (sx : GoExpr) (f : FieldConditional) : ∀ x ∈ fieldCondArgs sx f, idents x = idents sx := by
  intro x hx
  unfold fieldCondArgs at hx
  split at hx
  · cases hx
  · simp only [List.mem_singleton] at hx
    rw [hx, idents_addConv]
    rfl

theorem boundArgs_idents (sx : GoExpr) (b : RangeBound) : ∀ x ∈ boundArgs sx b, idents x = idents sx := by
  intro x hx
  cases b with
  | field f => exact fieldCondArgs_idents sx f x hx
  | column c => cases hx

mutual
theorem condArgs_idents (sx : GoExpr) : ∀ c : Cond, ∀ x ∈ condArgs sx c, idents x = idents sx
  | .bool _, x, h => by simp [condArgs] at h
  | .nested n items, x, h => by simp only [condArgs] at h; exact condsArgs_idents (.sel sx n) items x h
  | .field f, x, h => by simp only [condArgs] at h; exact fieldCondArgs_idents sx f x h
  | .column _, x, h => by simp [condArgs] at h
  | .between b, x, h => by
    simp only [condArgs, List.mem_append] at h
    rcases h with h | h <;> exact boundArgs_idents (.sel sx b.fieldName) _ x h
theorem condsArgs_idents (sx : GoExpr) : ∀ cs : List Cond, ∀ x ∈ condsArgs sx cs, idents x = idents sx
  | [], x, h => by simp [condsArgs] at h
  | c :: cs, x, h => by
    simp only [condsArgs, List.mem_append] at h
    rcases h with h | h
    · exact condArgs_idents sx c x h
    · exact condsArgs_idents sx cs x h
end

mutual
theorem condSlices_idents (sx : GoExpr) : ∀ c : Cond, ∀ x ∈ condSlices sx c, idents x = idents sx
  | .bool _, x, h => by simp [condSlices] at h
  | .nested n items, x, h => by simp only [condSlices] at h; exact condsSlices_idents (.sel sx n) items x h
  | .field f, x, h => by
    simp only [condSlices, fieldCondSlices] at h
    split at h
    · simp only [List.mem_singleton] at h; rw [h]; rfl
    · cases h
  | .column _, x, h => by simp [condSlices] at h
  | .between _, x, h => by simp [condSlices] at h
theorem condsSlices_idents (sx : GoExpr) : ∀ cs : List Cond, ∀ x ∈ condsSlices sx cs, idents x = idents sx
  | [], x, h => by simp [condsSlices] at h
  | c :: cs, x, h => by
    simp only [condsSlices, List.mem_append] at h
    rcases h with h | h
    · exact condSlices_idents sx c x h
    · exact condsSlices_idents sx cs x h
end

theorem joins_slices : ∀ (ds : List JoinDir) (cs : List (List JoinCond)) (g : G) (r : List (TableJoin Slot) × G),
    joinsOk cs = true → tableJoins g ds cs = some r → r.2.slices = g.slices
  | [], _, g, r, _, h => by
    simp only [tableJoins, Option.some.injEq] at h
    subst h
    rfl
  | _ :: _, [], g, r, _, h => by simp [tableJoins] at h
  | d :: ds, c :: cs, g, r, hj, h => by
    simp only [joinsOk, List.all_cons, Bool.and_eq_true] at hj
    simp only [tableJoins, Option.map_eq_some_iff] at h
    obtain ⟨r', h', rfl⟩ := h
    rw [joins_slices ds cs _ r' hj.2 h', condList_state noSel g true none _ hj.1, (joinConds_none noSel c).2]
    simp [G.add]

/-- The lists come from the where struct. -/
theorem code_slices {cat : Catalog} {q : Query} {t : TargetInfo} {c : Code} (hb : Built cat q t)
    (hi : inUsesFields q = true) (h : generate q t = some c) :
    (∀ x ∈ c.g.slices, idents x = [b!"q"]) ∧ (q.wher = none → c.g.slices = []) := by
  obtain ⟨js, g1, w, g2, hj, hw, _, hg, _, _⟩ := generate_split h
  have hin := inWithFields_of_accepted hb.checked hi
  simp only [inWithFields, Bool.and_eq_true] at hin
  have hsl : c.g.slices = g2.slices := by
    rw [hg, (offset_no q (buildLimit q g2).2 0).2, (limit_no q g2 0).2]
  have h1 : g1.slices = [] := by
    rw [← (values_no q t).2]
    unfold buildJoins at hj
    split at hj
    · simp only [Option.some.injEq, Prod.mk.injEq] at hj
      rw [hj.2]
    · exact joins_slices _ _ _ _ hin.1 hj
  rw [hsl]
  unfold buildWhere at hw
  split at hw
  · simp only [Option.some.injEq, Prod.mk.injEq] at hw
    rw [← hw.2, (pkeys_grow _ _ _ _).1, h1]
    simp
  · split at hw
    · split at hw
      · cases hw
      · next f hf =>
        simp only [Option.some.injEq, Prod.mk.injEq] at hw
        rw [← hw.2, condList_state _ _ _ _ _ hin.2]
        simp only [G.add, h1, List.nil_append]
        refine ⟨?_, fun hn => by rw [hn] at hf; cases hf⟩
        exact condsSlices_idents (.sel recv f.fieldName) _
    · simp only [Option.some.injEq, Prod.mk.injEq] at hw
      rw [← hw.2, h1]
      simp

theorem writeArg_idents (q : Query) (w : FieldWrite) : idents (writeArg q w) = idents (inputRoot q) := by
  rw [writeArg, idents_addConv, idents_fieldSel]

theorem limitArgs_idents (l : Option LimitField) : ∀ x ∈ limitArgs l, idents x = [b!"q"] := by
  intro x hx
  unfold limitArgs at hx
  split at hx
  · cases hx
  · split at hx
    · cases hx
    · simp only [List.mem_singleton] at hx
      rw [hx]
      rfl

theorem args_idents {q : Query} {t : TargetInfo} {x : GoExpr} (hx : x ∈ inputArgs q t) :
    (idents x = [b!"q"] ∧ (q.wher ≠ none ∨ q.limit ≠ none ∨ q.offset ≠ none)) ∨
      (idents x = idents (inputRoot q) ∧ (t.writes ≠ [] ∨ isUpdateWithPKeys q = true)) := by
  simp only [inputArgs, List.mem_append] at hx
  rcases hx with (((hx | hx) | hx) | hx) | hx
  · obtain ⟨w, hw, rfl⟩ := List.mem_map.1 hx
    refine .inr ⟨writeArg_idents q w, .inl ?_⟩
    intro h
    rw [h] at hw
    simp at hw
  · unfold whereArgs at hx
    split at hx
    · cases hx
    · next hw => exact .inl ⟨condsArgs_idents _ _ x hx, .inl (by rw [hw]; simp)⟩
  · unfold pkeyArgs at hx
    split at hx
    · next hu =>
      obtain ⟨w, _, rfl⟩ := List.mem_map.1 hx
      exact .inr ⟨idents_fieldSel _ _, .inr hu⟩
    · cases hx
  · refine .inl ⟨limitArgs_idents _ x hx, .inr (.inl ?_)⟩
    intro h
    rw [h] at hx
    cases hx
  · refine .inl ⟨limitArgs_idents _ x hx, .inr (.inr ?_)⟩
    intro h
    rw [h] at hx
    cases hx

theorem no_values {vs : List (VExpr Slot)} {cs : List Cell} (h : AllMatch vs cs) (he : cs.filterMap Cell.arg = []) :
    (vs.any fun v => !isDefault v) = false := by
  induction h with
  | nil => rfl
  | @cons v c vs cs hm _ ih =>
    cases c with
    | default =>
      simp only [List.filterMap_cons, Cell.arg] at he
      simp only [Matches] at hm
      simp [hm]
      simpa using ih he
    | value pre post a => simp [Cell.arg] at he

/-- The rows of a query are scanned into something that is declared. -/
def Scannable (q : Query) (t : TargetInfo) : Prop :=
  callOf q = .rows → t.reads ≠ [] ∧ (outputType q).isArray = false

theorem usable {cat : Catalog} {q : Query} {t : TargetInfo} {c : Code} (hb : Built cat q t)
    (hi : inUsesFields q = true) (hr : Scannable q t) (h : generate q t = some c) : Usable q t c where
  slots := code_slots h
  slices := (code_slices hb hi h).1
  args := by
    intro hs x hx
    obtain ⟨_, _, _, _, _, _, _, _, ha, _⟩ := generate_split h
    rw [ha] at hx
    rcases args_idents hx with h' | ⟨h1, h2⟩
    · exact h'.1
    · have hk : isInsertOrUpdate q = true := by
        cases hk : isInsertOrUpdate q with
        | true => rfl
        | false =>
          rcases h2 with h2 | h2
          · exact absurd (hb.no_writes hk).1 h2
          · simp only [isUpdateWithPKeys, Bool.and_eq_true, decide_eq_true_eq] at h2
            simp [isInsertOrUpdate, h2.1] at hk
      have : q.rel.type.isSlice = false := by simpa [isInsertOrUpdateSlice, hk] using hs
      rw [h1, inputRoot, this]
      rfl
  batch := by
    intro hs
    have hB : Batch cat q t := { toBuilt := hb, slice := hs }
    obtain ⟨hsl, hk⟩ := hB.kind
    obtain ⟨hw, _, hf⟩ := hB.rows
    have hlim := hb.shape.limits (by rcases hk with hk | hk <;> rw [hk] <;> rfl)
    refine ⟨(code_slices hb hi h).2 hw, hf, ?_, ?_⟩
    · intro x hx
      obtain ⟨_, _, _, _, _, _, _, _, ha, _⟩ := generate_split h
      rw [ha] at hx
      rcases args_idents hx with ⟨_, h' | h' | h'⟩ | ⟨h1, _⟩
      · exact absurd hw h'
      · exact absurd hlim.1 h'
      · exact absurd hlim.2 h'
      · rw [h1, inputRoot, hsl]
        rfl
    · intro he
      by_cases hwr : t.writes = []
      · obtain ⟨_, _, _, _, _, _, _, _, _, hrv⟩ := generate_split h
        rw [hrv]
        simp [targetValues, hwr, mapSt]
      · exact no_values (batch_matches hB hwr h) (by rw [← C41_record_arguments hB h]; exact he)
  row := (C42_call hb).2.1
  loop := by
    intro hc
    obtain ⟨h1, h2⟩ := hr hc
    have ho : hasOutput q t = true := by
      cases hx : t.reads with
      | nil => exact absurd hx h1
      | cons _ _ => simp [hasOutput, hx]
    refine ⟨ho, ?_⟩
    rcases C42_loop hb h1 hc h2 with ⟨a, b, d⟩ | ⟨a, b, d⟩
    · refine .inl ⟨a, ?_, ?_⟩
      · rw [b]; split <;> simp
      · rw [d]; split <;> simp
    · refine .inr ⟨?_, b, d⟩
      rw [a]
      rfl

/-- **C106** Every variable that a method uses is one of its parameters or declared before, in the block or one around
it. -/
theorem C106_declared {cat : Catalog} {q : Query} {t : TargetInfo} {c : Code} (hb : Built cat q t)
    (hi : inUsesFields q = true) (hr : Scannable q t) (h : generate q t = some c) (conf : PrintConf) (s : List Imp) :
    ∀ x ∈ (methodB conf s q t c).free, x ∈ methodParams conf :=
  (sound_method (usable hb hi hr h)).sub

/-- **C106** Every variable that is declared is new in its block, `:=` declares at least one, and every one is used. -/
theorem C106_used {cat : Catalog} {q : Query} {t : TargetInfo} {c : Code} (hb : Built cat q t)
    (hi : inUsesFields q = true) (hr : Scannable q t) (h : generate q t = some c) (conf : PrintConf) (s : List Imp) :
    (methodB conf s q t c).fine (methodParams conf) = true :=
  (sound_method (usable hb hi hr h)).fine

/-- **C106** The method ends with a return statement. -/
theorem C106_returns {cat : Catalog} {q : Query} {t : TargetInfo} {c : Code} (hb : Built cat q t)
    (hi : inUsesFields q = true) (hr : Scannable q t) (h : generate q t = some c) (conf : PrintConf) (s : List Imp) :
    (methodB conf s q t c).ends = true :=
  (sound_method (usable hb hi hr h)).ends

end Verif.Generator.Scoped
