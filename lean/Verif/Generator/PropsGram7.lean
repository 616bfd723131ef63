import Verif.Generator.PropsGram6

/- Property C89: the statement generated for what the checks found. -/
namespace Verif.Generator.Gram
open Verif.Analysis Verif.Postgres Verif.Generator.Lex Print

/-! ### What is required of the results of the checks -/

/-- A literal in place of a value. -/
def ValueText (t : Bytes) : Prop := t.length > 0 → AtomText t

instance (t : Bytes) : Decidable (ValueText t) := by unfold ValueText; infer_instance

/-- There is a right side. -/
def RhsGiven : Rhs → Prop
  | .none => False
  | .column c => c ≠ {} ∧ WordOk c.qualifier
  | .literal s => s.length > 0 ∧ AtomText s

/-- A right side where one is needed, no list of columns, and a quantifier only with the operators that can have
one. -/
def RhsFits (r : Rhs) (quant : Option Quant) : PForm → Prop
  | .binary op => RhsGiven r ∧ (quant.isSome = true → quantifiable op = true)
  | .inList _ => False
  | _ => True

def QuantFits (quant : Option Quant) (t : Bytes) : PForm → Prop
  | .binary op => quant.isSome = true → quantifiable op = true ∧ TypeText (t ++ b!"[]")
  | _ => True

def BoundFits : RangeBound → Prop
  | .column c => WordOk (rhsCol c.rhs).qualifier
  | .field _ => True

def FuncFits (fn : Bytes) : Prop := fn.length > 0 → funcWord (lower fn) = true

mutual
def CondFits : Cond → Prop
  | .bool _ => False
  | .nested _ items => CondsFit items
  | .field c => WordOk c.colIdent.qualifier ∧ FuncFits c.func ∧ QuantFits c.quant c.column.type.nameFmt (predForm c.pred)
  | .column c => WordOk c.lhs.qualifier ∧ RhsFits c.rhs c.quant (predForm c.pred)
  | .between b => WordOk b.colIdent.qualifier ∧ BoundFits b.lower ∧ BoundFits b.upper
/-- A condition first, then every condition behind AND or OR. -/
def CondsFit : List Cond → Prop
  | [] => False
  | c :: cs => CondFits c ∧ RestFits cs
def RestFits : List Cond → Prop
  | [] => True
  | .bool _ :: c :: cs => CondFits c ∧ RestFits cs
  | _ => False
end

/-- The name of the type is a type, and its zero value is a value: that of lseg is not (C66). -/
def ColFits (c : Column) : Prop := TypeText c.type.nameFmt ∧ c.type.oid ≠ Oid.lseg

def ReadFits (r : FieldRead) : Prop :=
  WordOk r.colIdent.qualifier ∧ (r.needsCoalesce = true → ColFits r.column ∧ ValueText r.field.coalesceValue)

def WriteFits (w : FieldWrite) : Prop := WordOk w.colIdent.qualifier ∧ ColFits w.column

/-- A join has conditions unless it is a cross join. -/
def JoinFits (d : JoinDir) (cs : List JoinCond) : Prop :=
  RelGram d.relIdent ∧ (if d.joinType = some .cross then cs = [] else CondsFit (cs.map joinCond))

def JoinsFit : List JoinDir → List (List JoinCond) → Prop
  | [], _ => True
  | _ :: _, [] => False
  | d :: ds, c :: cs => JoinFits d c ∧ JoinsFit ds cs

/-- The names of tables, the conditions, the values and the types of the query can stand where they are put. -/
structure InfoFits (q : Query) (t : TargetInfo) : Prop where
  rel : RelGram q.rel.id
  from_ : ∀ j r, q.join = some j → j.relation = some r → RelGram r
  joins : ∀ j, q.join = some j → JoinsFit j.directives t.joins
  reads : ∀ r ∈ t.reads, ReadFits r
  writes : ∀ w ∈ t.writes, WriteFits w
  pkeys : ∀ w ∈ t.pkeys, WriteFits w
  wher : t.wher ≠ [] → CondsFit t.wher
  order : ∀ l, q.orderBy = some l → ∀ i ∈ l, WordOk i.colIdent.qualifier
  conflict : ∀ c x, t.conflict = some c → c.target = some x → TargetGram x
  /-- an INSERT needs a column -/
  inserts : q.kind = .insert → t.writes ≠ []
  /-- an UPDATE of one column needs no list of columns, one of no column is none -/
  updates : q.kind = .update → t.writes.length ≥ 2
  /-- an UPDATE without conditions has keys -/
  keys : isUpdateWithPKeys q = true → t.pkeys ≠ []
  /-- an UPDATE of many records has a value for each column and no other tables -/
  many : q.kind = .update → q.rel.type.isSlice = true →
    q.join = none ∧ ∀ w ∈ t.writes, canUseDefault q w.field = false

/-! ### The statement -/

section
variable {α : Type} {f : α → Bytes}

theorem zeroValue_atom {t : PgType} {l : Bytes} (ht : t.oid ≠ Oid.lseg) (h : t.zeroValue = some l) : AtomText l := by
  have all : ∀ p ∈ typeToZeroValue, p.1 ≠ Oid.lseg → AtomText p.2 := by decide +kernel
  unfold PgType.zeroValue at h
  generalize typeToZeroValue = tab at h all
  induction tab with
  | nil => cases h
  | cons p ps ih =>
    obtain ⟨k, v⟩ := p
    rw [List.lookup_cons] at h
    split at h
    · next he =>
      cases h
      exact all _ (List.mem_cons_self ..) (by simpa using (beq_iff_eq.1 he) ▸ ht)
    · exact ih h fun p hp => all p (List.mem_cons_of_mem _ hp)

theorem emptyLit_gram : ValGram f (emptyLit (α := α)) := show AtomText b!"''" by decide

theorem addCoalesce_gram {x : VExpr α} {v : Bytes} {c : Column} (hx : ValGram f x) (hv : ValueText v)
    (hc : ColFits c) : ValGram f (addCoalesce x v c) := by
  unfold addCoalesce
  split
  · next h => exact ⟨hx, hv h, hc.1⟩
  · split
    · exact ⟨⟨hx, by decide⟩, emptyLit_gram⟩
    · split
      · next l hl => exact ⟨hx, zeroValue_atom hc.2 hl, hc.1⟩
      · exact hx

theorem addNullif_gram {x : VExpr α} {c : Column} (hx : ValGram f x) (hc : ColFits c) :
    ValGram f (addNullif x c) := by
  unfold addNullif
  split
  · refine ⟨⟨?_, emptyLit_gram⟩, hc.1⟩
    unfold textUnlessParam
    split
    · exact hx
    · exact ⟨hx, by decide⟩
  · split
    · next l hl => exact ⟨⟨hx, zeroValue_atom hc.2 hl⟩, hc.1⟩
    · exact hx

theorem addCall_gram {fn : Bytes} {x : VExpr α} (hf : FuncFits fn) (hx : ValGram f x) : ValGram f (addCall fn x) := by
  unfold addCall
  split
  · next h => exact ⟨hf h, hx⟩
  · exact hx

theorem readVal_gram {r : FieldRead} (h : ReadFits r) : ValGram f (readVal (α := α) r) := by
  unfold readVal
  split
  · next hn => exact addCoalesce_gram h.1 (h.2 hn).2 (h.2 hn).1
  · exact h.1

theorem outputVals_gram {t : TargetInfo} (h : ∀ r ∈ t.reads, ReadFits r) : ValsGram f (outputVals (α := α) t) := by
  intro v hv
  simp only [outputVals, List.mem_map] at hv
  obtain ⟨r, hr, rfl⟩ := hv
  exact readVal_gram (h r hr)

theorem rhsExpr_gram : ∀ {r : Rhs}, RhsGiven r → ValGram f (rhsExpr (α := α) r)
  | .none, h => h.elim
  | .column c, h => by
    simp only [rhsExpr, if_neg h.1]
    exact h.2
  | .literal s, h => by
    simp only [rhsExpr, if_pos h.1]
    exact h.2

theorem rhs_of_val {op : BinOp} {x : VExpr α} (h : ValGram f x) : RhsGram f op x := by
  cases x <;> first | exact h | exact h.elim

theorem addQuant_gram {q : Option Quant} {t : Bytes} {x : VExpr α} {op : BinOp}
    (hq : q.isSome = true → quantifiable op = true) (ht : q.isSome = true → t.length > 0 → TypeText (t ++ b!"[]"))
    (hx : ValGram f x) : RhsGram f op (addQuant q t x) := by
  unfold addQuant
  cases q with
  | none => exact rhs_of_val hx
  | some q =>
    refine ⟨hq rfl, ?_⟩
    split
    · next h => exact ⟨hx, ht rfl h⟩
    · exact hx

end

section
variable {f : Slot → Bytes} (hnum : ∀ n, AtomText (f (.num n))) (hlist : ∀ k, ListText (f (.slice k)))
include hnum

omit hnum in
theorem mapSt_gram {β : Type} {g : G → β → VExpr Slot × G} : ∀ (xs : List β) (s : G),
    (∀ x ∈ xs, ∀ s, ValGram f (g s x).1) → ValsGram f (mapSt g s xs).1
  | [], s, _ => by intro v hv; simp [mapSt] at hv
  | x :: xs, s, hg => by
    intro v hv
    simp only [mapSt, List.mem_cons] at hv
    rcases hv with rfl | hv
    · exact hg x (List.mem_cons_self ..) s
    · exact mapSt_gram xs _ (fun y hy => hg y (List.mem_cons_of_mem _ hy)) v hv

theorem fieldParam_gram (g : G) (i : Nat) : AtomText (f (fieldParam g i).1) := by
  unfold fieldParam
  split
  · exact hnum _
  · exact hnum _

theorem writeVal_gram {q : Query} {w : FieldWrite} (h : WriteFits w) (g : G) : ValGram f (writeVal q g w).1 := by
  unfold writeVal
  split
  · trivial
  · simp only
    split
    · exact addNullif_gram (fieldParam_gram hnum _ _) h.2
    · split
      · exact ⟨fieldParam_gram hnum _ _, h.2.1⟩
      · exact fieldParam_gram hnum _ _

theorem targetValues_gram {q : Query} {t : TargetInfo} (h : ∀ w ∈ t.writes, WriteFits w) :
    ValsGram f (targetValues q t).vals ∧ ValsGram f (targetValues q t).pkeys := by
  have h1 : ValsGram f (mapSt (writeVal q) {} t.writes).1 :=
    mapSt_gram _ _ fun w hw g => writeVal_gram hnum (h w hw) g
  unfold targetValues
  simp only
  split
  · exact ⟨h1, mapSt_gram _ _ fun w _ g => fieldParam_gram hnum _ _⟩
  · exact ⟨h1, by intro v hv; simp at hv⟩

include hlist

theorem fieldExpr_gram {sx : GoExpr} {g : G} {c : FieldConditional} (h : CondFits (.field c)) :
    CondGram f (fieldExpr sx g c).1 := by
  rw [CondFits] at h
  obtain ⟨h1, h2, h3⟩ := h
  have hl : ValGram f (addCall c.func (.col c.colIdent : VExpr Slot)) := addCall_gram h2 h1
  unfold fieldExpr predExpr
  simp only
  cases hf : predForm c.pred with
  | binary op =>
    rw [hf] at h3
    simp only [formExpr, CondGram]
    refine ⟨hl, addQuant_gram (fun hq => (h3 hq).1) (fun hq ht => ?_) (addCall_gram h2 (hnum _))⟩
    unfold quantType at ht ⊢
    rw [if_pos hq]
    exact (h3 hq).2
  | inList b => simp only [formExpr, CondGram]; exact ⟨hl, hlist _⟩
  | truth b t => simp only [formExpr, CondGram]; exact hl
  | null b => simp only [formExpr, CondGram]; exact hl
  | bare => simp only [formExpr, CondGram]; exact hl

omit hnum hlist in
theorem columnExpr_gram {sx : GoExpr} {g : G} {c : ColumnConditional} (h : CondFits (.column c)) :
    CondGram f (columnExpr sx g c).1 := by
  rw [CondFits] at h
  obtain ⟨h1, h3⟩ := h
  unfold columnExpr predExpr
  simp only
  cases hf : predForm c.pred with
  | binary op =>
    rw [hf] at h3
    simp only [formExpr, CondGram]
    exact ⟨h1, addQuant_gram h3.2 (fun _ h => by simp at h) (rhsExpr_gram h3.1)⟩
  | inList b => rw [hf] at h3; exact h3.elim
  | truth b t => simp only [formExpr, CondGram]; exact h1
  | null b => simp only [formExpr, CondGram]; exact h1
  | bare => simp only [formExpr, CondGram]; exact h1

omit hlist in
theorem boundExpr_gram {g : G} : ∀ {b : RangeBound}, BoundFits b → ValGram f (boundExpr g b).1
  | .column _, h => h
  | .field _, _ => hnum _

set_option linter.unusedSectionVars false in
mutual
theorem condExpr_gram : ∀ (c : Cond) (sx : GoExpr) (g : G), CondFits c → CondGram f (condExpr sx g c).1
  | .bool _, sx, g, h => by rw [CondFits] at h; exact h.elim
  | .nested n items, sx, g, h => by
    rw [CondFits] at h
    simp only [condExpr, CondGram]
    exact condList_gram items _ _ h
  | .field c, sx, g, h => by
    rw [condExpr]
    exact fieldExpr_gram hnum hlist h
  | .column c, sx, g, h => by
    rw [condExpr]
    exact columnExpr_gram h
  | .between b, sx, g, h => by
    rw [CondFits] at h
    simp only [condExpr, betweenExpr, CondGram]
    exact ⟨h.1, boundExpr_gram hnum h.2.1, boundExpr_gram hnum h.2.2⟩
theorem condList_gram : ∀ (cs : List Cond) (sx : GoExpr) (g : G), CondsFit cs →
    CondsGram f (condList sx g true none cs).1
  | [], sx, g, h => by rw [CondsFit] at h; exact h.elim
  | c :: cs, sx, g, h => by
    rw [CondsFit] at h
    rw [condList]
    split
    · next hb => cases c <;> simp [isBool] at hb; rw [CondFits] at h; exact h.1.elim
    · simp only [addItem, if_true, CondsGram]
      exact ⟨trivial, condExpr_gram c sx g h.1, restList_gram cs _ _ _ h.2⟩
theorem restList_gram : ∀ (cs : List Cond) (sx : GoExpr) (g : G) (b : Option Bool), RestFits cs →
    RestGram f (condList sx g false b cs).1
  | [], sx, g, b, _ => by simp [condList, RestGram]
  | .bool b' :: [], sx, g, b, h => by rw [RestFits] at h; exact h.elim; all_goals simp
  | .bool b' :: c :: cs, sx, g, b, h => by
    rw [RestFits] at h
    rw [condList]
    simp only [isBool]
    rw [condList]
    split
    · next hb => cases c <;> simp [isBool] at hb; rw [CondFits] at h; exact h.1.elim
    · have hr := restList_gram cs sx (condExpr sx g c).2 (some b') h.2
      have hc := condExpr_gram c sx g h.1
      cases b' <;> exact ⟨by simp, hc, hr⟩
  | .nested _ _ :: cs, sx, g, b, h => by rw [RestFits] at h; exact h.elim; all_goals simp
  | .field _ :: cs, sx, g, b, h => by rw [RestFits] at h; exact h.elim; all_goals simp
  | .column _ :: cs, sx, g, b, h => by rw [RestFits] at h; exact h.elim; all_goals simp
  | .between _ :: cs, sx, g, b, h => by rw [RestFits] at h; exact h.elim; all_goals simp
end

theorem tableJoins_gram : ∀ (ds : List JoinDir) (cs : List (List JoinCond)) (g : G)
    (r : List (TableJoin Slot) × G), JoinsFit ds cs → tableJoins g ds cs = some r → ∀ j ∈ r.1, JoinGram f j
  | [], cs, g, r, _, h => by simp only [tableJoins, Option.some.injEq] at h; subst h; simp
  | d :: ds, [], g, r, hd, h => hd.elim
  | d :: ds, c :: cs, g, r, hd, h => by
    simp only [tableJoins, Option.map_eq_some_iff] at h
    obtain ⟨r', h, rfl⟩ := h
    obtain ⟨⟨h1, h2⟩, h3⟩ := hd
    intro j hj
    simp only [List.mem_cons] at hj
    rcases hj with rfl | hj
    · refine ⟨h1, ?_⟩
      simp only
      split at h2
      · next hx => rw [if_pos hx, h2]; rfl
      · next hx => rw [if_neg hx]; exact condList_gram hnum hlist _ _ _ h2
    · exact tableJoins_gram ds cs _ _ h3 h j hj

theorem buildJoins_gram {q : Query} {t : TargetInfo} (ht : InfoFits q t) {g g' : G}
    {js : List (TableJoin Slot)} (h : buildJoins q t g = some (js, g')) : ∀ j ∈ js, JoinGram f j := by
  unfold buildJoins at h
  split at h
  · cases h; simp
  · next j hj => exact tableJoins_gram hnum hlist _ _ _ _ (ht.joins j hj) h

omit hlist in
theorem pkeyConds_gram (b : Bool) : ∀ (ws : List FieldWrite) (g : G), (∀ w ∈ ws, WriteFits w) →
    RestGram f (pkeyConds b g false ws).1 ∧ (ws ≠ [] → CondsGram f (pkeyConds b g true ws).1)
  | [], g, _ => ⟨by simp [pkeyConds, RestGram], fun h => absurd rfl h⟩
  | w :: ws, g, h => by
    have hw := h w (List.mem_cons_self ..)
    have ih := fun g => (pkeyConds_gram b ws g fun w hm => h w (List.mem_cons_of_mem _ hm)).1
    have hc : ValGram f (.col w.colIdent) ∧ RhsGram f .eq
        (if b then .cast (.xcol w.colIdent.name) w.column.type.nameFmt else .param (fieldParam g w.idx).1) := by
      refine ⟨hw.1, ?_⟩
      cases b
      · exact fieldParam_gram hnum _ _
      · exact ⟨trivial, hw.2.1⟩
    simp only [pkeyConds, RestGram, CondsGram, CondGram]
    exact ⟨⟨by simp, hc, ih _⟩, fun _ => ⟨by simp, hc, ih _⟩⟩

theorem buildWhere_gram {q : Query} {t : TargetInfo} (ht : InfoFits q t) {g g' : G} {w : Option (BList Slot)}
    (h : buildWhere q t g = some (w, g')) : WhereGram f w := by
  unfold buildWhere at h
  split at h
  · next hk =>
    cases h
    intro l hl
    cases hl
    exact (pkeyConds_gram hnum _ _ _ ht.pkeys).2 (ht.keys hk)
  · split at h
    · next hne =>
      split at h
      · cases h
      · cases h
        intro l hl
        cases hl
        exact condList_gram hnum hlist _ _ _ (ht.wher (by rintro h; simp [h] at hne))
    · cases h
      intro l hl
      cases hl

omit hlist in
theorem limitValue_gram {g : G} {l : LimitField} : LimitGram f (limitValue g l).1 := by
  unfold limitValue
  split
  · exact hnum _
  · simp only
    split <;> trivial

omit hlist in
theorem buildLimit_gram {q : Query} {g : G} : LimitGram f (buildLimit q g).1 := by
  unfold buildLimit
  split
  · simp only
    split <;> trivial
  · exact limitValue_gram hnum

omit hlist in
theorem buildOffset_gram {q : Query} {g : G} : LimitGram f (buildOffset q g).1 := by
  unfold buildOffset
  split
  · trivial
  · exact limitValue_gram hnum

end

end Verif.Generator.Gram
