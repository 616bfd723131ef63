import Verif.Generator.Accepted

/- Every argument has a placeholder. -/
namespace Verif.Generator
open Verif.Analysis Verif.Postgres

/-- The numbers above `lo`, up to `hi`, are among the slots. -/
def Covers (s : List Slot) (lo hi : Int) : Prop := ∀ n, lo < n → n ≤ hi → Slot.num n ∈ s

theorem Covers.refl (s : List Slot) (a : Int) : Covers s a a := fun n h1 h2 => by omega

theorem Covers.of_le (s : List Slot) {a b : Int} (h : b ≤ a) : Covers s a b :=
  fun n h1 h2 => by omega

theorem Covers.one (a : Int) : Covers [.num (a + 1)] a (a + 1) := by
  intro n h1 h2
  have : n = a + 1 := by omega
  simp [this]

theorem Covers.mono {s s' : List Slot} {a b : Int} (h : Covers s a b) (hs : ∀ x ∈ s, x ∈ s') :
    Covers s' a b := fun n h1 h2 => hs _ (h n h1 h2)

theorem Covers.append {s s' : List Slot} {a b c : Int} (h : Covers s a b) (h' : Covers s' b c) :
    Covers (s ++ s') a c := by
  intro n h1 h2
  by_cases hn : n ≤ b
  · exact List.mem_append_left _ (h n h1 hn)
  · exact List.mem_append_right _ (h' n (by omega) h2)

/-! ### Expressions keep their parameters -/

section
variable {α : Type}

theorem addNullif_slots (x : VExpr α) (c : Column) : (addNullif x c).slots = x.slots := by
  unfold addNullif
  split
  · cases x <;> simp [VExpr.slots, textUnlessParam, emptyLit]
  · split <;> simp [VExpr.slots]

theorem addCall_slots (fn : Bytes) (x : VExpr α) : (addCall fn x).slots = x.slots := by
  unfold addCall
  split <;> simp [VExpr.slots]

theorem addQuant_slots (q : Option Quant) (t : Bytes) (x : VExpr α) : (addQuant q t x).slots = x.slots := by
  unfold addQuant
  split
  · rfl
  · simp only [VExpr.slots]
    split <;> simp [VExpr.slots]

end

/-! ### Values -/

theorem fieldParam_covers (g : G) (i : Nat) : Covers [(fieldParam g i).1] g.num (fieldParam g i).2.num := by
  unfold fieldParam
  split
  · exact Covers.refl _ _
  · exact Covers.one _

theorem writeVal_covers (q : Query) (g : G) (w : FieldWrite) :
    Covers (writeVal q g w).1.slots g.num (writeVal q g w).2.num := by
  unfold writeVal
  split
  · exact Covers.refl _ _
  · simp only
    split
    · rw [addNullif_slots]; exact fieldParam_covers g w.idx
    · split
      · exact fieldParam_covers g w.idx
      · exact fieldParam_covers g w.idx

theorem mapSt_covers {β : Type} (f : G → β → VExpr Slot × G)
    (hf : ∀ g x, Covers (f g x).1.slots g.num (f g x).2.num) :
    ∀ (l : List β) (g : G), Covers ((mapSt f g l).1.flatMap VExpr.slots) g.num (mapSt f g l).2.num
  | [], g => Covers.refl _ _
  | x :: xs, g => by
    simp only [mapSt, List.flatMap_cons]
    exact (hf g x).append (mapSt_covers f hf xs _)

/-! ### Conditions -/

/-- The predicate takes a value. -/
def takesValue (p : Option Pred) : Bool :=
  match predForm p with
  | .binary _ => true
  | .inList _ => true
  | _ => false

mutual
/-- The condition, with all its parts, is part of the statement. -/
def condKept : Cond → Bool
  | .nested _ items => condsKept true false items
  | .field f => takesValue f.pred
  | _ => true
/-- So are all the conditions; `seen` is "after a connective". -/
def condsKept (first seen : Bool) : List Cond → Bool
  | [] => true
  | c :: cs =>
    match isBool c with
    | some _ => condsKept false true cs
    | none => (first || seen) && condKept c && condsKept false seen cs
end

theorem fieldExpr_covers (sx : GoExpr) (g : G) (f : FieldConditional) (h : takesValue f.pred = true) :
    Covers (fieldExpr sx g f).1.slots g.num (fieldExpr sx g f).2.num := by
  unfold takesValue at h
  simp only [fieldExpr, predExpr, freshParam]
  split at h
  · next hp =>
    rw [hp]
    simp only [formExpr, formState, BExpr.slots, addQuant_slots, addCall_slots, VExpr.slots,
      List.nil_append]
    exact Covers.one _
  · next hp =>
    rw [hp]
    simp only [formState]
    exact Covers.of_le _ (by omega)
  · cases h

theorem columnExpr_covers (sx : GoExpr) (g : G) (c : ColumnConditional) :
    Covers (columnExpr sx g c).1.slots g.num (columnExpr sx g c).2.num := by
  simp only [columnExpr, predExpr, formState_eq]
  split
  · exact Covers.of_le _ (by simp only; omega)
  · exact Covers.refl _ _

theorem boundExpr_covers (g : G) (b : RangeBound) :
    Covers (boundExpr g b).1.slots g.num (boundExpr g b).2.num := by
  cases b with
  | column c => exact Covers.refl _ _
  | field f => exact Covers.one _

theorem addItem_slots {first : Bool} {boolean : Option Bool} (h : (first || boolean.isSome) = true)
    (x : BExpr Slot) (rest : BList Slot) :
    (addItem first boolean x rest).slots = x.slots ++ rest.slots := by
  unfold addItem
  split
  · simp only [BList.slots]
  · split
    · simp only [BList.slots]
    · simp only [BList.slots]
    · simp_all

mutual
theorem condExpr_covers (sx : GoExpr) (g : G) : ∀ c : Cond, condKept c = true →
    Covers (condExpr sx g c).1.slots g.num (condExpr sx g c).2.num
  | .bool _, _ => by simp only [condExpr]; exact Covers.refl _ _
  | .nested n items, h => by
    simp only [condKept] at h
    simp only [condExpr, BExpr.slots]
    exact condList_covers (.sel sx n) g true none items h
  | .field f, h => by
    simp only [condKept] at h
    simp only [condExpr]
    exact fieldExpr_covers sx g f h
  | .column c, _ => by
    simp only [condExpr]
    exact columnExpr_covers sx g c
  | .between b, _ => by
    simp only [condExpr, betweenExpr, BExpr.slots, VExpr.slots, List.nil_append]
    exact (boundExpr_covers g b.lower).append (boundExpr_covers _ b.upper)
theorem condList_covers (sx : GoExpr) (g : G) (first : Bool) (boolean : Option Bool) :
    ∀ cs : List Cond, condsKept first boolean.isSome cs = true →
      Covers (condList sx g first boolean cs).1.slots g.num (condList sx g first boolean cs).2.num
  | [], _ => by simp only [condList]; exact Covers.refl _ _
  | c :: cs, h => by
    simp only [condsKept] at h
    simp only [condList]
    cases hb : isBool c with
    | some b =>
      rw [hb] at h
      exact condList_covers sx g false (some b) cs h
    | none =>
      rw [hb] at h
      simp only [Bool.and_eq_true] at h
      simp only
      rw [addItem_slots h.1.1]
      exact (condExpr_covers sx g c h.1.2).append (condList_covers sx _ false boolean cs h.2)
end

theorem pkeyConds_covers : ∀ (l : List FieldWrite) (g : G) (first : Bool),
    Covers (pkeyConds false g first l).1.slots g.num (pkeyConds false g first l).2.num
  | [], g, first => by simp only [pkeyConds]; exact Covers.refl _ _
  | w :: ws, g, first => by
    simp only [pkeyConds, BList.slots, BExpr.slots, VExpr.slots, List.nil_append, Bool.false_eq_true,
      if_false]
    exact (fieldParam_covers g w.idx).append (pkeyConds_covers ws _ false)

theorem buildWhere_covers {q : Query} {t : TargetInfo} {g : G} {w : Option (BList Slot)} {g' : G}
    (hs : q.rel.type.isSlice = false ∨ isUpdateWithPKeys q = false)
    (hk : condsKept true false t.wher = true) (h : buildWhere q t g = some (w, g')) :
    Covers (whereSlots w) g.num g'.num := by
  unfold buildWhere at h
  split at h
  · next hu =>
    have hs : q.rel.type.isSlice = false := by
      rcases hs with hs | hs
      · exact hs
      · rw [hs] at hu; cases hu
    simp only [hs, Option.some.injEq, Prod.mk.injEq] at h
    obtain ⟨rfl, rfl⟩ := h
    exact pkeyConds_covers _ _ _
  · split at h
    · split at h
      · cases h
      · simp only [Option.some.injEq, Prod.mk.injEq] at h
        obtain ⟨rfl, rfl⟩ := h
        exact condList_covers _ _ _ _ _ hk
    · simp only [Option.some.injEq, Prod.mk.injEq] at h
      obtain ⟨rfl, rfl⟩ := h
      exact Covers.refl _ _

theorem limitValue_covers (g : G) (l : LimitField) :
    Covers (limitValue g l).1.slots g.num (limitValue g l).2.num := by
  unfold limitValue
  split
  · exact Covers.one _
  · exact Covers.refl _ _

theorem buildLimit_covers (q : Query) (g : G) :
    Covers (buildLimit q g).1.slots g.num (buildLimit q g).2.num := by
  unfold buildLimit
  split
  · exact Covers.refl _ _
  · exact limitValue_covers _ _

theorem buildOffset_covers (q : Query) (g : G) :
    Covers (buildOffset q g).1.slots g.num (buildOffset q g).2.num := by
  unfold buildOffset
  split
  · exact Covers.refl _ _
  · exact limitValue_covers _ _

/-- Joins use no more numbers. -/
theorem joinConds_covers (g : G) : ∀ (cs : List JoinCond) (first : Bool) (boolean : Option Bool),
    (condList noSel g first boolean (cs.map joinCond)).2.num ≤ g.num := by
  intro cs
  induction cs generalizing g with
  | nil => intro first boolean; simp [condList]
  | cons c cs ih =>
    intro first boolean
    cases c with
    | bool b =>
      simp only [List.map_cons, joinCond, condList, isBool]
      exact ih g false (some b)
    | column c =>
      simp only [List.map_cons, joinCond, condList, isBool, condExpr]
      refine Int.le_trans (ih _ false boolean) ?_
      simp only [columnExpr, predExpr, formState_eq]
      split
      · simp only; omega
      · simp

theorem tableJoins_covers : ∀ (ds : List JoinDir) (cs : List (List JoinCond)) (g : G)
    (r : List (TableJoin Slot) × G), tableJoins g ds cs = some r → r.2.num ≤ g.num
  | [], _, g, r, h => by simp only [tableJoins, Option.some.injEq] at h; subst h; exact Int.le_refl _
  | _ :: _, [], g, r, h => by simp [tableJoins] at h
  | d :: ds, c :: cs, g, r, h => by
    simp only [tableJoins, Option.map_eq_some_iff] at h
    obtain ⟨r', h', rfl⟩ := h
    exact Int.le_trans (tableJoins_covers ds cs _ r' h') (joinConds_covers g c true none)

theorem buildJoins_covers {q : Query} {t : TargetInfo} {g g' : G} {js : List (TableJoin Slot)}
    (h : buildJoins q t g = some (js, g')) (s : List Slot) : Covers s g.num g'.num := by
  unfold buildJoins at h
  split at h
  · simp only [Option.some.injEq, Prod.mk.injEq] at h
    rw [h.2]; exact Covers.refl _ _
  · exact Covers.of_le _ (tableJoins_covers _ _ _ _ h)

/-! ### Statements -/

/-- Which clauses a query can have, by its kind (see `shape_of_analyzed`). -/
structure Shape (q : Query) : Prop where
  insertRows : q.kind = .insert → q.wher = none ∧ q.all = false ∧ q.filter = none
  limits : q.kind.isSelect = false → q.limit = none ∧ q.offset = none
  filterOnly : q.filter ≠ none → q.wher = none

theorem generate_split {q : Query} {t : TargetInfo} {c : Code} (h : generate q t = some c) :
    ∃ js g1 w g2, buildJoins q t (targetValues q t).g = some (js, g1) ∧
      buildWhere q t g1 = some (w, g2) ∧
      buildStmt q t (targetValues q t).vals
        { joins := js, wher := w, limit := (buildLimit q g2).1
          offset := (buildOffset q (buildLimit q g2).2).1 } = some c.sql ∧
      c.g = (buildOffset q (buildLimit q g2).2).2 ∧ c.args = inputArgs q t ∧
      c.rowVals = (targetValues q t).vals ++ (targetValues q t).pkeys := by
  simp only [generate, Option.bind_eq_some_iff, Option.map_eq_some_iff] at h
  obtain ⟨⟨js, g1⟩, h1, ⟨w, g2⟩, h2, s, h3, rfl⟩ := h
  exact ⟨js, g1, w, g2, h1, h2, h3, rfl, rfl, rfl⟩

/-- The statement of a count takes no limit, and one of a count or exists with a filter nothing at all. -/
def keepsAll (q : Query) : Prop :=
  (q.kind = .selectCount → limitArgs q.limit = []) ∧ (isSelectCountOrExists q = true → q.filter = none)

theorem generate_covers {q : Query} {t : TargetInfo} {c : Code} (hw : Wf q t) (hsh : Shape q)
    (hsl : isInsertOrUpdateSlice q = false) (hk : condsKept true false t.wher = true)
    (hwr : isInsertOrUpdate q = false → t.writes = [])
    (ha : keepsAll q) (h : generate q t = some c) :
    Covers (c.sql.stmt.slots ++ c.sql.tail.slots) 0 c.g.num := by
  obtain ⟨js, g1, w, g2, hj, hb, hs, hg, _, _⟩ := generate_split h
  have hsu : q.isSliceUpdate = false := by
    cases hs : q.isSliceUpdate with
    | false => rfl
    | true =>
      simp only [Query.isSliceUpdate, Bool.and_eq_true, decide_eq_true_eq] at hs
      simp [isInsertOrUpdateSlice, isInsertOrUpdate, hs.1, hs.2] at hsl
  rw [targetValues_plain t hsu] at hj hs
  have c1 : Covers ((mapSt (writeVal q) {} t.writes).1.flatMap VExpr.slots) 0
      (mapSt (writeVal q) {} t.writes).2.num := mapSt_covers _ (writeVal_covers q) t.writes {}
  have c2 := buildJoins_covers hj []
  have c3 : Covers (whereSlots w) g1.num g2.num := by
    refine buildWhere_covers ?_ hk hb
    cases hu : isUpdateWithPKeys q with
    | false => exact .inr rfl
    | true =>
      refine .inl ?_
      simp only [isUpdateWithPKeys, Bool.and_eq_true, decide_eq_true_eq] at hu
      simpa [isInsertOrUpdateSlice, isInsertOrUpdate, hu.1] using hsl
  have c4 := buildLimit_covers q g2
  have c5 := buildOffset_covers q (buildLimit q g2).2
  have call := (((c1.append c2).append c3).append c4).append c5
  rw [← hg] at call
  refine call.mono ?_
  simp only [List.append_nil, List.mem_append]
  -- the parts are in the statement
  have hlim : q.kind.isSelect = false → ∀ x, x ∉ (buildLimit q g2).1.slots ∧
      x ∉ (buildOffset q (buildLimit q g2).2).1.slots := by
    intro hk x
    obtain ⟨h1, h2⟩ := hsh.limits hk
    simp only [buildLimit, buildOffset, h1, h2]
    constructor
    · split <;> simp [LimitVal.slots]
    · simp [LimitVal.slots]
  have hno : isInsertOrUpdate q = false →
      (mapSt (writeVal q) {} t.writes).1.flatMap VExpr.slots = [] := by
    intro h; rw [hwr h]; rfl
  intro x hx
  unfold buildStmt at hs
  cases hkind : q.kind with
  | insert =>
    have hrs : q.rel.type.isSlice = false := by
      simpa [isInsertOrUpdateSlice, isInsertOrUpdate, hkind] using hsl
    obtain ⟨h1, _, _⟩ := hsh.insertRows hkind
    have hl := hlim (by rw [hkind]; rfl) x
    have hwn : w = none := by
      have : isUpdateWithPKeys q = false := by simp [isUpdateWithPKeys, hkind]
      simp only [buildWhere, this, hw.wherNone h1] at hb
      simp at hb
      exact hb.1.symm
    rw [hkind] at hs
    simp only [buildInsert, hrs, Bool.false_eq_true, if_false, Option.some.injEq] at hs
    rw [← hs]
    simp only [Stmt.slots, Option.getD_some, List.mem_append]
    rcases hx with ((hx | hx) | hx) | hx
    · exact .inl (.inl hx)
    · rw [hwn] at hx; cases hx
    · exact absurd hx hl.1
    · exact absurd hx hl.2
  | update =>
    have hrs : q.rel.type.isSlice = false := by
      simpa [isInsertOrUpdateSlice, isInsertOrUpdate, hkind] using hsl
    have hl := hlim (by rw [hkind]; rfl) x
    rw [hkind] at hs
    simp only [buildUpdate, hrs, hsu, Bool.false_eq_true, if_false, Option.map_eq_some_iff] at hs
    obtain ⟨fr, _, hs⟩ := hs
    split at hs
    · next hf =>
      have hwn : w = none := by
        have h1 : isUpdateWithPKeys q = false := by simp [isUpdateWithPKeys, Query.hasWhere, hf.1]
        have h2 : q.wher = none := hsh.filterOnly (by intro h0; simp [h0] at hf)
        simp only [buildWhere, h1, hw.wherNone h2] at hb
        simp at hb
        exact hb.1.symm
      rw [← hs]
      simp only [Stmt.slots, List.mem_append]
      rcases hx with ((hx | hx) | hx) | hx
      · exact .inl (.inl (.inl (.inl hx)))
      · rw [hwn] at hx; cases hx
      · exact absurd hx hl.1
      · exact absurd hx hl.2
    · rw [← hs]
      simp only [Stmt.slots, List.mem_append]
      rcases hx with ((hx | hx) | hx) | hx
      · exact .inl (.inl (.inl (.inl hx)))
      · exact .inl (.inl (.inr hx))
      · exact absurd hx hl.1
      · exact absurd hx hl.2
  | select =>
    have hn := hno (by simp [isInsertOrUpdate, hkind])
    rw [hn] at hx
    rw [hkind] at hs
    simp only [Option.some.injEq] at hs
    rw [← hs]
    simp only [Stmt.slots, List.mem_append]
    rcases hx with ((hx | hx) | hx) | hx
    · cases hx
    · exact .inl (.inl (.inl (.inr hx)))
    · exact .inl (.inl (.inr hx))
    · exact .inl (.inr hx)
  | selectCount =>
    have hn := hno (by simp [isInsertOrUpdate, hkind])
    rw [hn] at hx
    have hf := ha.2 (by simp [isSelectCountOrExists, hkind, QKind.isSelect])
    have hl := ha.1 hkind
    rw [hkind] at hs
    simp only [buildCount, hf, Option.isNone_none, if_true, Option.some.injEq] at hs
    rw [← hs]
    simp only [Stmt.slots, List.mem_append]
    rcases hx with ((hx | hx) | hx) | hx
    · cases hx
    · exact .inl (.inl (.inr hx))
    · exfalso
      revert hl hx
      unfold limitArgs buildLimit limitValue
      cases q.limit with
      | none => intro _; simp only; split <;> simp [LimitVal.slots]
      | some l =>
        simp only
        split
        · next h0 =>
          intro _
          rw [if_neg (by omega)]
          simp only
          split <;> simp [LimitVal.slots]
        · intro h; cases h
    · exact .inl (.inr hx)
  | selectExists =>
    have hn := hno (by simp [isInsertOrUpdate, hkind])
    rw [hn] at hx
    have hf := ha.2 (by simp [isSelectCountOrExists, hkind, QKind.isSelect])
    rw [hkind] at hs
    simp only [buildExists, hf, Option.isNone_none, if_true, Option.some.injEq] at hs
    rw [← hs]
    simp only [Stmt.slots, List.mem_append]
    rcases hx with ((hx | hx) | hx) | hx
    · cases hx
    · exact .inl (.inl (.inl (.inr hx)))
    · exact .inl (.inl (.inr hx))
    · exact .inl (.inr hx)
  | selectNotExists =>
    have hn := hno (by simp [isInsertOrUpdate, hkind])
    rw [hn] at hx
    have hf := ha.2 (by simp [isSelectCountOrExists, hkind, QKind.isSelect])
    rw [hkind] at hs
    simp only [buildExists, hf, Option.isNone_none, if_true, Option.some.injEq] at hs
    rw [← hs]
    simp only [Stmt.slots, List.mem_append]
    rcases hx with ((hx | hx) | hx) | hx
    · cases hx
    · exact .inl (.inl (.inl (.inr hx)))
    · exact .inl (.inl (.inr hx))
    · exact .inl (.inr hx)
  | delete =>
    have hn := hno (by simp [isInsertOrUpdate, hkind])
    rw [hn] at hx
    have hl := hlim (by rw [hkind]; rfl) x
    rw [hkind] at hs
    simp only [buildDelete, Option.map_eq_some_iff] at hs
    obtain ⟨us, _, hs⟩ := hs
    rw [← hs]
    simp only [Stmt.slots, List.mem_append]
    rcases hx with ((hx | hx) | hx) | hx
    · cases hx
    · exact .inl (.inl (.inr hx))
    · exact absurd hx hl.1
    · exact absurd hx hl.2

end Verif.Generator
