import Verif.Postgres.PropsConflict

/-
Property C48: what the type checker decides does not depend on the order in which Go iterates over the
map of operators.
-/
namespace Verif.Postgres
open Verif.Analysis

/-- The same database, its operators iterated over in another order. -/
def reorder (cat : Catalog) (o : List OpKey) : Catalog := { cat with ops := o }

/-- Success, the error, or a crash, without the result. -/
def verdict {α : Type} (r : P α) : P Unit := r.map fun _ => ()

theorem verdict_map {α β : Type} (f : α → β) (r : P α) : verdict (r.map f) = verdict r := by
  cases r <;> rfl

theorem verdict_bind {α α' β β' : Type} {r : P α} {r' : P α'} {f : α → P β} {f' : α' → P β'}
    (h : verdict r = verdict r') (hf : ∀ a a', r = .ok a → r' = .ok a' → verdict (f a) = verdict (f' a')) :
    verdict (r.bind f) = verdict (r'.bind f') := by
  cases r <;> cases r' <;> simp_all [verdict]

theorem verdict_err {α α' : Type} {r : P α} {r' : P α'} {e : DbErr} (h : verdict r = verdict r') :
    r = .err e ↔ r' = .err e := by
  cases r <;> cases r' <;> simp_all [verdict]

/-- The entry under which the operator's right operand accepts the type. -/
def accepts (cat : Catalog) (name : Bytes) (left : Nat) (t : TypeInfo) (k : OpKey) : Option CompEntry :=
  if k.name = name ∧ k.left = left then (cat.type k.right).bind fun rt => typeCompat cat rt t false
  else none

theorem scanOps_cons (cat : Catalog) (name : Bytes) (left : Nat) (t : TypeInfo)
    (comp : Option CompEntry) (k : OpKey) (ks : List OpKey) :
    scanOps cat name left t comp (k :: ks) =
      match accepts cat name left t k with
      | none => scanOps cat name left t comp ks
      | some ce =>
        if ce.valuer.length = 0 then some ce
        else scanOps cat name left t (if comp.isNone then some ce else comp) ks := by
  rw [scanOps]
  unfold accepts
  by_cases h : k.name = name ∧ k.left = left
  · rw [if_neg (by simp [h]), if_pos h]
    cases (cat.type k.right).bind fun rt => typeCompat cat rt t false <;> rfl
  · rw [if_pos (Decidable.not_and_iff_not_or_not.1 h), if_neg h]

/-- The loop finds an entry exactly if there is one. -/
theorem scanOps_isSome (cat : Catalog) (name : Bytes) (left : Nat) (t : TypeInfo) :
    ∀ (ks : List OpKey) (comp : Option CompEntry),
      (scanOps cat name left t comp ks).isSome =
        (comp.isSome || ks.any fun k => (accepts cat name left t k).isSome)
  | [], comp => by simp [scanOps]
  | k :: ks, comp => by
    rw [scanOps_cons]
    cases hk : accepts cat name left t k with
    | none => simp [scanOps_isSome, hk]
    | some ce =>
      by_cases hv : ce.valuer.length = 0
      · simp [hv, hk]
      · cases comp <;> simp [hv, hk, scanOps_isSome]

/-- An entry that needs no conversion wins. -/
theorem scanOps_plain (cat : Catalog) (name : Bytes) (left : Nat) (t : TypeInfo) :
    ∀ (ks : List OpKey) (comp : Option CompEntry),
      (∃ k ∈ ks, ∃ ce, accepts cat name left t k = some ce ∧ ce.valuer = []) →
        ∃ ce, scanOps cat name left t comp ks = some ce ∧ ce.valuer = []
  | [], comp, h => by obtain ⟨k, hk, _⟩ := h; cases hk
  | k :: ks, comp, h => by
    rw [scanOps_cons]
    obtain ⟨k', hk', ce, hce, hv⟩ := h
    cases hk : accepts cat name left t k with
    | none =>
      rcases List.mem_cons.1 hk' with rfl | hm
      · rw [hk] at hce; cases hce
      · exact scanOps_plain cat name left t ks comp ⟨k', hm, ce, hce, hv⟩
    | some ce' =>
      by_cases hv' : ce'.valuer.length = 0
      · exact ⟨ce', by simp [hv'], List.length_eq_zero_iff.1 hv'⟩
      · rcases List.mem_cons.1 hk' with rfl | hm
        · rw [hk] at hce; cases hce; simp [hv] at hv'
        · simp only [hv', if_false]
          exact scanOps_plain cat name left t ks _ ⟨k', hm, ce, hce, hv⟩

/-- What is found comes from an operator. -/
theorem scanOps_from (cat : Catalog) (name : Bytes) (left : Nat) (t : TypeInfo) :
    ∀ (ks : List OpKey) (comp : Option CompEntry) (ce : CompEntry),
      scanOps cat name left t comp ks = some ce →
        comp = some ce ∨ ∃ k ∈ ks, accepts cat name left t k = some ce
  | [], comp, ce, h => .inl h
  | k :: ks, comp, ce, h => by
    rw [scanOps_cons] at h
    cases hk : accepts cat name left t k with
    | none =>
      rw [hk] at h
      rcases scanOps_from cat name left t ks comp ce h with h | ⟨k', hm, h⟩
      · exact .inl h
      · exact .inr ⟨k', by simp [hm], h⟩
    | some ce' =>
      rw [hk] at h
      simp only at h
      split at h
      · cases h; exact .inr ⟨k, by simp, hk⟩
      · rcases scanOps_from cat name left t ks _ ce h with h | ⟨k', hm, h⟩
        · cases comp with
          | none => simp at h; subst h; exact .inr ⟨k, by simp, hk⟩
          | some c => simp at h; subst h; exact .inl rfl
        · exact .inr ⟨k', by simp [hm], h⟩

/-! ### One condition -/

section
variable {cat : Catalog} {o : List OpKey} (ho : cat.ops.Perm o)
include ho

theorem hasOp_reorder (k : OpKey) : (reorder cat o).hasOp k = cat.hasOp k := by
  show o.contains k = cat.ops.contains k
  rw [Bool.eq_iff_iff]
  simp [ho.mem_iff]

theorem comparable_reorder (l r : PgType) (p : Option Pred) :
    comparable (reorder cat o) l r p = comparable cat l r p := by
  simp only [comparable, castOp, hasOp_reorder ho]
  rfl

theorem checkComparison_reorder (l : PgType) (r : Option PgType) (p : Option Pred) (q : Option Quant) :
    checkComparison (reorder cat o) l r p q = checkComparison cat l r p q := by
  show (rhsType cat r p q).bind _ = (rhsType cat r p q).bind _
  congr 1
  funext x
  cases x with
  | none => rfl
  | some t => simp only [comparable_reorder ho]

theorem checkFieldCondPlain_reorder (f : FieldConditional) :
    verdict (checkFieldCondPlain (reorder cat o) f) = verdict (checkFieldCondPlain cat f) := by
  unfold checkFieldCondPlain
  simp only [hasOp_reorder ho]
  refine verdict_bind (r := condColType cat f) rfl ?_
  intro ctyp ctyp' h h'
  rw [h] at h'
  cases h'
  refine verdict_bind rfl ?_
  intro d d' h h'
  have e : (Res.ok d : P (Option CompEntry)) = .ok d' := by rw [← h, ← h']; rfl
  cases e
  cases d with
  | some ce => rfl
  | none =>
    have hs : (scanOps (reorder cat o) (oprname f.pred)
        (if f.column.type.isEnum = true then Oid.text else f.column.type.oid) (condType f.fieldType)
        none (reorder cat o).ops).isSome =
      (scanOps cat (oprname f.pred)
        (if f.column.type.isEnum = true then Oid.text else f.column.type.oid) (condType f.fieldType)
        none cat.ops).isSome := by
      rw [scanOps_isSome, scanOps_isSome]
      show (_ || o.any fun k => (accepts cat _ _ _ k).isSome) = (_ || _)
      congr 1
      rw [Bool.eq_iff_iff]
      simp only [List.any_eq_true, ho.mem_iff]
    revert hs
    simp only []
    generalize scanOps (reorder cat o) _ _ _ _ _ = a
    generalize scanOps cat _ _ _ _ _ = b
    cases a <;> cases b <;> simp [verdict]

theorem checkFieldCondFunc_reorder (f : FieldConditional) :
    checkFieldCondFunc (reorder cat o) f = checkFieldCondFunc cat f := by
  have h1 : ∀ l r, procPair (reorder cat o) f l r = procPair cat f l r := by
    intro l r
    unfold procPair
    simp only [checkComparison_reorder ho]
    rfl
  have h2 : ∀ ps, findPair (reorder cat o) f ps = findPair cat f ps := by
    intro ps
    induction ps with
    | nil => rfl
    | cons p ps ih =>
      cases p
      simp only [findPair, ih]
      rfl
  unfold checkFieldCondFunc procPairs
  simp only [h1]
  show (if _ then _ else Res.bind _ (findPair (reorder cat o) f)) = _
  rw [show findPair (reorder cat o) f = findPair cat f from funext h2]
  rfl

/-- **C48** Whether a condition on a field type-checks, and with which error, does not depend on the order
of the operators. -/
theorem C48_field_condition (f : FieldConditional) :
    verdict (checkFieldCond (reorder cat o) f) = verdict (checkFieldCond cat f) := by
  unfold checkFieldCond
  rw [verdict_map, verdict_map]
  split
  · rw [checkFieldCondFunc_reorder ho]
  · exact checkFieldCondPlain_reorder ho f

/-- **C48** The converter does not depend on it either, if the condition goes through a function, or if some
operator accepts the field without conversion. -/
theorem C48_converter (f g g' : FieldConditional) (hg : checkFieldCond cat f = .ok g)
    (hg' : checkFieldCond (reorder cat o) f = .ok g')
    (h : f.func ≠ [] ∨
      (∃ k ∈ cat.ops, ∃ ce,
        accepts cat (oprname f.pred) (if f.column.type.isEnum then Oid.text else f.column.type.oid)
          (condType f.fieldType) k = some ce ∧ ce.valuer = [])) : g = g' := by
  unfold checkFieldCond at hg hg'
  simp only [Res.map_eq_ok] at hg hg'
  obtain ⟨v, hv, rfl⟩ := hg
  obtain ⟨v', hv', rfl⟩ := hg'
  have : v = v' := by
    by_cases hf : f.func.length > 0
    · rw [if_pos hf] at hv hv'
      rw [checkFieldCondFunc_reorder ho, hv] at hv'
      cases hv'; rfl
    · rw [if_neg hf] at hv hv'
      have hx := h.resolve_left (fun hne => hf (List.length_pos_iff.2 hne))
      unfold checkFieldCondPlain at hv hv'
      simp only [hasOp_reorder ho] at hv'
      simp only [Res.bind_eq_ok] at hv hv'
      obtain ⟨ctyp, hc, d, hd, hv⟩ := hv
      obtain ⟨ctyp', hc', d', hd', hv'⟩ := hv'
      have : ctyp = ctyp' := by
        have : (Res.ok ctyp : P PgType) = .ok ctyp' := by rw [← hc, ← hc']; rfl
        cases this; rfl
      subst this
      have : d = d' := by
        have : (Res.ok d : P (Option CompEntry)) = .ok d' := by rw [← hd, ← hd']; rfl
        cases this; rfl
      subst this
      cases d with
      | some ce => simp only [Res.ok.injEq] at hv hv'; rw [← hv, ← hv']
      | none =>
        obtain ⟨ce, e, h0⟩ := scanOps_plain cat _ _ _ cat.ops none hx
        obtain ⟨k, hk, hx2⟩ := hx
        obtain ⟨ce', e', h0'⟩ := scanOps_plain (reorder cat o) _ _ _ (reorder cat o).ops none
          ⟨k, ho.mem_iff.1 hk, hx2⟩
        rw [e] at hv
        rw [e'] at hv'
        simp only [Res.ok.injEq] at hv hv'
        rw [← hv, ← hv', h0, h0']
  rw [this]

/-! ### Whole queries -/

theorem checkColCondOn_reorder (c : Checker) (hc : c.cat = cat) (col : Column) (cc : ColCond) (b : Bool) :
    checkColCondOn { c with cat := reorder cat o } col cc b = checkColCondOn c col cc b := by
  subst hc
  unfold checkColCondOn
  simp only [checkComparison_reorder ho]
  have : ∀ r, checkRhs { c with cat := reorder c.cat o } r = checkRhs c r := by
    intro r; cases r <;> rfl
  simp only [this]
  rfl

theorem checkColCond_reorder (c : Checker) (hc : c.cat = cat) (rel : Option Relation) (cc : ColCond)
    (b : Bool) : checkColCond { c with cat := reorder cat o } rel cc b = checkColCond c rel cc b := by
  unfold checkColCond
  simp only [checkColCondOn_reorder ho c hc]
  cases rel <;> rfl

omit ho in
theorem verdict_mapErr {α β : Type} (f : DbErr → DbErr) {r : P α} {r' : P β} (h : verdict r = verdict r') :
    verdict (mapErr f r) = verdict (mapErr f r') := by
  cases r <;> cases r' <;> simp_all [verdict, mapErr]

theorem checkBound_reorder (c : Checker) (hc : c.cat = cat) (col : Column) (wb : BetweenCond) (p : Pred)
    (b : Bound) : verdict (checkBound { c with cat := reorder cat o } col wb p b) =
      verdict (checkBound c col wb p b) := by
  cases b with
  | column cid =>
    simp only [checkBound]
    rw [checkColCondOn_reorder ho c hc]
  | field n t =>
    unfold checkBound
    rw [verdict_map, verdict_map]
    refine verdict_mapErr _ ?_
    rw [hc]
    exact C48_field_condition ho _

theorem checkBetween_reorder (c : Checker) (hc : c.cat = cat) (wb : BetweenCond) :
    verdict (checkBetween { c with cat := reorder cat o } wb) = verdict (checkBetween c wb) := by
  unfold checkBetween
  refine verdict_bind (r := findColumn c wb.colIdent) rfl ?_
  intro a a' h h'
  rw [h] at h'
  cases h'
  refine verdict_bind (checkBound_reorder ho c hc _ _ _ _) ?_
  intro l l' _ _
  rw [verdict_map, verdict_map]
  exact checkBound_reorder ho c hc _ _ _ _

mutual
theorem checkWhereItem_reorder (c : Checker) (hc : c.cat = cat) : ∀ (i : WItem),
    verdict (checkWhereItem { c with cat := reorder cat o } i) = verdict (checkWhereItem c i)
  | .bool b => by simp [checkWhereItem, verdict]
  | .nested n items => by
    unfold checkWhereItem
    rw [verdict_map, verdict_map]
    exact checkWhereItems_reorder c hc items
  | .column cc => by
    unfold checkWhereItem
    rw [checkColCond_reorder ho c hc]
  | .field f => by
    unfold checkWhereItem checkWhereField
    rw [verdict_map, verdict_map]
    refine verdict_bind (r := findColumn c f.colIdent) rfl ?_
    intro a a' h h'
    rw [h] at h'
    cases h'
    rw [hc]
    exact C48_field_condition ho _
  | .between b => by
    unfold checkWhereItem
    rw [verdict_map, verdict_map]
    exact checkBetween_reorder ho c hc b
theorem checkWhereItems_reorder (c : Checker) (hc : c.cat = cat) : ∀ (l : List WItem),
    verdict (checkWhereItems { c with cat := reorder cat o } l) = verdict (checkWhereItems c l)
  | [] => by simp [checkWhereItems, verdict]
  | i :: l => by
    unfold checkWhereItems
    refine verdict_bind (checkWhereItem_reorder c hc i) ?_
    intro a a' _ _
    rw [verdict_map, verdict_map]
    exact checkWhereItems_reorder c hc l
end

omit ho in
theorem mapP_congr {ε α β : Type} {f g : α → Res ε β} (h : ∀ x, f x = g x) (l : List α) :
    mapP f l = mapP g l := by rw [show f = g from funext h]

/-- The state of the checker over the other order. -/
def Checker.over (c : Checker) (cat : Catalog) : Checker := { c with cat := cat }

theorem checkJoinDirs_reorder : ∀ (ds : List JoinDir) (c : Checker), c.cat = cat →
    checkJoinDirs (c.over (reorder cat o)) ds =
      (checkJoinDirs c ds).map fun r => (r.1.over (reorder cat o), r.2)
  | [], c, _ => rfl
  | d :: ds, c, hc => by
    have hl : loadJoin (c.over (reorder cat o)) d.relIdent =
        (loadJoin c d.relIdent).map fun r => (r.1.over (reorder cat o), r.2) := by
      unfold loadJoin
      rw [map_map, hc]
      rfl
    simp only [checkJoinDirs, hl]
    cases hr : loadJoin c d.relIdent with
    | err e => rfl
    | panic => rfl
    | ok cr =>
      have hcr : cr.1.cat = cat := by
        unfold loadJoin at hr
        simp only [Res.map_eq_ok] at hr
        obtain ⟨_, _, rfl⟩ := hr
        exact hc
      simp only [Res.map_ok, Res.bind_ok]
      have hi : mapP (checkJoinItem (cr.1.over (reorder cat o)) cr.2) d.items =
          mapP (checkJoinItem cr.1 cr.2) d.items := by
        refine mapP_congr ?_ _
        intro i
        cases i with
        | bool b => rfl
        | cond cc => 
          simp only [checkJoinItem]
          exact congrArg (Res.map JoinCond.column) (checkColCond_reorder ho cr.1 hcr _ _ _)
      rw [hi]
      cases mapP (checkJoinItem cr.1 cr.2) d.items with
      | err e => rfl
      | panic => rfl
      | ok items =>
        simp only [Res.bind_ok]
        rw [checkJoinDirs_reorder ds cr.1 hcr, map_map, map_map]

theorem checkJoin_reorder (c : Checker) (hc : c.cat = cat) (j : Option JoinStruct) :
    checkJoin (c.over (reorder cat o)) j =
      (checkJoin c j).map fun r => (r.1.over (reorder cat o), r.2) := by
  cases j with
  | none => rfl
  | some j =>
    simp only [checkJoin]
    cases hr : j.relation with
    | none => simp only [joinBase, Res.bind_ok]; exact checkJoinDirs_reorder ho _ c hc
    | some rid =>
      simp only [joinBase]
      have hl : loadJoin (c.over (reorder cat o)) rid =
          (loadJoin c rid).map fun r => (r.1.over (reorder cat o), r.2) := by
        unfold loadJoin
        rw [map_map, hc]
        rfl
      rw [hl, map_map]
      cases hr : loadJoin c rid with
      | err e => rfl
      | panic => rfl
      | ok cr =>
        simp only [Res.map_ok, Res.bind_ok]
        refine checkJoinDirs_reorder ho _ cr.1 ?_
        unfold loadJoin at hr
        simp only [Res.map_eq_ok] at hr
        obtain ⟨_, _, rfl⟩ := hr
        exact hc

omit ho in
theorem verdict_bind_same {α β β' : Type} {r : P α} {f : α → P β} {f' : α → P β'}
    (hf : ∀ a, verdict (f a) = verdict (f' a)) : verdict (r.bind f) = verdict (r.bind f') := by
  cases r with
  | ok a => exact hf a
  | err e => rfl
  | panic => rfl

omit ho in
theorem checkJoin_cat {c : Checker} {j : Option JoinStruct} {r : Checker × List (List JoinCond)}
    (h : checkJoin c j = .ok r) : r.1.cat = c.cat := by
  have hl : ∀ {c : Checker} {rid r}, loadJoin c rid = .ok r → r.1.cat = c.cat := by
    intro c rid r h
    unfold loadJoin at h
    simp only [Res.map_eq_ok] at h
    obtain ⟨_, _, rfl⟩ := h
    rfl
  have hd : ∀ (ds : List JoinDir) (c : Checker) (r), checkJoinDirs c ds = .ok r → r.1.cat = c.cat := by
    intro ds
    induction ds with
    | nil => intro c r h; cases h; rfl
    | cons d ds ih =>
      intro c r h
      simp only [checkJoinDirs, Res.bind_eq_ok, Res.map_eq_ok] at h
      obtain ⟨cr, h1, _, _, r', h2, rfl⟩ := h
      exact (ih _ _ h2).trans (hl h1)
  cases j with
  | none => cases h; rfl
  | some j =>
    simp only [checkJoin, Res.bind_eq_ok] at h
    obtain ⟨c', h1, h2⟩ := h
    rw [hd _ _ _ h2]
    cases hj : j.relation with
    | none => rw [hj] at h1; cases h1; rfl
    | some rid =>
      rw [hj] at h1
      simp only [joinBase, Res.map_eq_ok] at h1
      obtain ⟨cr, h1, rfl⟩ := h1
      exact hl h1

/-- **C48** Whether a query type-checks, and with which error, does not depend on the order of the
operators. -/
theorem C48_query (q : Query) :
    verdict (checkQuery (reorder cat o) q) = verdict (checkQuery cat q) := by
  unfold checkQuery
  have ht : loadTarget (reorder cat o) q.rel.id =
      (loadTarget cat q.rel.id).map fun c => c.over (reorder cat o) := by
    unfold loadTarget
    rw [map_map]
    rfl
  rw [ht]
  cases hl : loadTarget cat q.rel.id with
  | err e => rfl
  | panic => rfl
  | ok c =>
    have hc : c.cat = cat := by
      unfold loadTarget at hl
      simp only [Res.map_eq_ok] at hl
      obtain ⟨_, _, rfl⟩ := hl
      rfl
    simp only [Res.map_ok, Res.bind_ok]
    rw [checkJoin_reorder ho c hc]
    cases hj : checkJoin c q.join with
    | err e => rfl
    | panic => rfl
    | ok cj =>
      have hcj : cj.1.cat = cat := (checkJoin_cat hj).trans hc
      simp only [Res.map_ok, Res.bind_ok]
      show verdict (checkRest ({ cj.1 with force := q.force }.over (reorder cat o)) cj.2 q) = _
      have hcf : ({ cj.1 with force := q.force } : Checker).cat = cat := hcj
      generalize ({ cj.1 with force := q.force } : Checker) = c2 at hcf ⊢
      subst hcf
      unfold checkRest
      refine verdict_bind_same fun _ => ?_
      refine verdict_bind_same fun _ => ?_
      refine verdict_bind_same fun _ => ?_
      refine verdict_bind_same fun _ => ?_
      refine verdict_bind_same fun _ => ?_
      refine verdict_bind_same fun _ => ?_
      refine verdict_bind (checkWhereItems_reorder ho c2 rfl _) ?_
      intro a a' _ _
      rw [verdict_map, verdict_map]
      rfl

end

/-! ### The converter can depend on the order -/

def lsegTy : PgType := { oid := Oid.lseg, nameFmt := b!"lseg", category := 'G' }
def boxTy : PgType := { oid := Oid.box, nameFmt := b!"box", category := 'G' }
def pointTy : PgType := { oid := Oid.point, nameFmt := b!"point", category := 'G' }

/-- Two (user defined) operators `point = lseg` and `point = box`. -/
def geoOps : List OpKey := [⟨b!"=", Oid.point, Oid.lseg⟩, ⟨b!"=", Oid.point, Oid.box⟩]
def geoCat : Catalog :=
  { types := [lsegTy, boxTy, pointTy], ops := geoOps, casts := [], procs := [], rels := [] }

/-- The Go type `[2][2]float64`. -/
def float22 : TypeInfo :=
  .elem { kind := .array, arrayLen := 2 }
    (.elem { kind := .array, arrayLen := 2 } (.leaf { kind := .float64 }))

def pointCond (t : TypeInfo) : FieldConditional :=
  { fieldName := b!"P", fieldType := t, colIdent := { name := b!"p" }, pred := some .isEQ
    column := { num := 1, name := b!"p", type := pointTy } }

def valuerOf (r : P FieldConditional) : Option Bytes :=
  match r with
  | .ok f => some f.valuer
  | _ => none

/-- **C48** The hypothesis of `C48_converter` is needed: with converters only, the first operator wins. -/
theorem C48_not_converter :
    geoCat.ops.Perm geoOps.reverse ∧
    valuerOf (checkFieldCond geoCat (pointCond float22)) = some b!"LsegFromFloat64Array2Array2" ∧
    valuerOf (checkFieldCond (reorder geoCat geoOps.reverse) (pointCond float22)) =
      some b!"BoxFromFloat64Array2Array2" := by
  refine ⟨(List.reverse_perm _).symm, ?_, ?_⟩ <;> decide +kernel

/-- `C48_converter` applies to `[]byte`, which needs no conversion; an `int` fits neither operator. -/
example : (∃ k ∈ geoCat.ops, ∃ ce, accepts geoCat b!"=" Oid.point
    (.elem { kind := .slice } (.leaf { kind := .uint8, isByte := true })) k = some ce ∧ ce.valuer = []) := by
  refine ⟨⟨b!"=", Oid.point, Oid.lseg⟩, by decide, {}, ?_, rfl⟩
  decide +kernel
example : checkFieldCond geoCat (pointCond (.leaf { kind := .int })) = .err .columnFieldComparison ∧
    checkFieldCond (reorder geoCat geoOps.reverse) (pointCond (.leaf { kind := .int })) =
      .err .columnFieldComparison := by decide +kernel

end Verif.Postgres
