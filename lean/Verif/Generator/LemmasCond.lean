import Verif.Generator.Lemmas

/- The parameters of conditions. -/
namespace Verif.Generator
open Verif.Analysis Verif.Postgres

/-- The slices to be spread: fields compared with [NOT] IN. -/
def fieldCondSlices (sx : GoExpr) (f : FieldConditional) : List GoExpr :=
  if predIs Pred.isArray f.pred then [.sel sx f.fieldName] else []

mutual
def condSlices (sx : GoExpr) : Cond → List GoExpr
  | .bool _ => []
  | .nested n items => condsSlices (.sel sx n) items
  | .field f => fieldCondSlices sx f
  | .column _ => []
  | .between _ => []
def condsSlices (sx : GoExpr) : List Cond → List GoExpr
  | [] => []
  | c :: cs => condSlices sx c ++ condsSlices sx cs
end

/-- A bound of a range is not a list. -/
def boundOk : RangeBound → Bool
  | .field f => !predIs Pred.isArray f.pred
  | .column _ => true

mutual
/-- [NOT] IN is used with fields only. -/
def condOk : Cond → Bool
  | .bool _ => true
  | .nested _ items => condsOk items
  | .field _ => true
  | .column c => !predIs Pred.isArray c.pred
  | .between b => boundOk b.lower && boundOk b.upper
def condsOk : List Cond → Bool
  | [] => true
  | c :: cs => condOk c && condsOk cs
end

theorem formState_eq (s : GoExpr) (g : G) (p : Option Pred) :
    formState s g (predForm p) =
      if predIs Pred.isArray p then { g with slices := g.slices ++ [s], num := g.num - 1 } else g := by
  cases p with
  | none => rfl
  | some p => cases p <;> rfl

theorem predForm_inList {p : Option Pred} {n : Bool} (h : predForm p = .inList n) :
    predIs Pred.isArray p = true := by
  cases p with
  | none => cases h
  | some p => cases p <;> first | rfl | cases h

/-- Only the list of a list predicate matters. -/
theorem formExpr_congr {α : Type} {l r l' r' : VExpr α} {a a' : α} {p : Option Pred} (hl : l = l')
    (hr : predIs Pred.isArray p = false → r = r') (ha : predIs Pred.isArray p = true → a = a') :
    formExpr l r a (predForm p) = formExpr l' r' a' (predForm p) := by
  subst hl
  cases h : predIs Pred.isArray p with
  | false =>
    have := hr h
    subst this
    cases hf : predForm p with
    | inList n => rw [predForm_inList hf] at h; cases h
    | _ => rfl
  | true =>
    have := ha h
    subst this
    cases hp : p with
    | none => subst hp; cases h
    | some x =>
      subst hp
      cases x <;> first | rfl | cases h

def G.add (g : G) (n : Nat) (s : List GoExpr) : G :=
  { g with num := g.num + n, slices := g.slices ++ s }

theorem G.add_zero (g : G) : g.add 0 [] = g := by simp [G.add]

theorem G.add_add (g : G) (m n : Nat) (s s' : List GoExpr) :
    (g.add m s).add n s' = g.add (m + n) (s ++ s') := by
  simp only [G.add, List.append_assoc, G.mk.injEq, and_true]
  push_cast
  omega

theorem fieldExpr_state (sx : GoExpr) (g : G) (f : FieldConditional) :
    (fieldExpr sx g f).2 = g.add (fieldCondArgs sx f).length (fieldCondSlices sx f) := by
  simp only [fieldExpr, predExpr, formState_eq, freshParam, fieldCondArgs, fieldCondSlices, G.add]
  split
  · simp
  · simp

theorem columnExpr_state (sx : GoExpr) (g : G) (c : ColumnConditional)
    (h : predIs Pred.isArray c.pred = false) : (columnExpr sx g c).2 = g := by
  simp [columnExpr, predExpr, formState_eq, h]

theorem boundExpr_state (sx : GoExpr) (g : G) (b : RangeBound) (h : boundOk b = true) :
    (boundExpr g b).2 = g.add (boundArgs sx b).length [] := by
  cases b with
  | column c => simp [boundExpr, boundArgs, G.add]
  | field f =>
    simp only [boundOk, Bool.not_eq_true'] at h
    simp [boundExpr, boundArgs, freshParam, G.add, fieldCondArgs, h]

mutual
theorem condExpr_state (sx : GoExpr) (g : G) : ∀ c : Cond, condOk c = true →
    (condExpr sx g c).2 = g.add (condArgs sx c).length (condSlices sx c)
  | .bool _, _ => by simp [condExpr, condArgs, condSlices, G.add]
  | .nested n items, h => by
    simp only [condExpr, condArgs, condSlices]
    simp only [condOk] at h
    exact condList_state (.sel sx n) g true none items h
  | .field f, _ => by
    simp only [condExpr, condArgs, condSlices]
    exact fieldExpr_state sx g f
  | .column c, h => by
    simp only [condOk, Bool.not_eq_true'] at h
    simp only [condExpr, condArgs, condSlices, List.length_nil, G.add_zero]
    exact columnExpr_state sx g c h
  | .between b, h => by
    simp only [condOk, Bool.and_eq_true] at h
    simp only [condExpr, betweenExpr, condArgs, condSlices]
    rw [boundExpr_state (.sel sx b.fieldName) _ _ h.2, boundExpr_state (.sel sx b.fieldName) _ _ h.1,
      G.add_add, List.length_append]
    rfl
theorem condList_state (sx : GoExpr) (g : G) (first : Bool) (boolean : Option Bool) :
    ∀ cs : List Cond, condsOk cs = true →
      (condList sx g first boolean cs).2 = g.add (condsArgs sx cs).length (condsSlices sx cs)
  | [], _ => by simp [condList, condsArgs, condsSlices, G.add]
  | c :: cs, h => by
    simp only [condsOk, Bool.and_eq_true] at h
    simp only [condList, condsArgs, condsSlices]
    cases hb : isBool c with
    | some b =>
      have hc : c = .bool b := by
        cases c <;> simp [isBool] at hb
        rw [hb]
      subst hc
      simp only [condArgs, condSlices, List.nil_append]
      exact condList_state sx g false (some b) cs h.2
    | none =>
      simp only
      rw [condList_state sx _ false boolean cs h.2, condExpr_state sx g c h.1, G.add_add,
        List.length_append]
end

theorem some_param (e : GoExpr) : (VExpr.param e).map some = .param (some e) := rfl

theorem fieldExpr_map (sx : GoExpr) (g : G) (f : FieldConditional) (pre post spost : List GoExpr)
    (hn : g.num = pre.length) :
    (fieldExpr sx g f).1.map
        (resolve (pre ++ fieldCondArgs sx f ++ post) (g.slices ++ fieldCondSlices sx f ++ spost)) =
      (fieldSpec sx f).map some := by
  simp only [fieldExpr, predExpr, fieldSpec, map_formExpr, map_addCall, map_addQuant, freshParam]
  refine formExpr_congr rfl ?_ ?_
  · intro h
    simp only [fieldCondArgs, fieldCondSlices, h, Bool.false_eq_true, if_false, VExpr.map,
      List.append_assoc, List.cons_append, List.nil_append]
    rw [resolve_num _ _ _ _ _ hn]
  · intro h
    simp only [fieldCondArgs, fieldCondSlices, h, if_true, List.append_nil, List.append_assoc,
      List.cons_append, List.nil_append]
    exact resolve_slice _ _ _ _

theorem columnExpr_map (sx : GoExpr) (g : G) (c : ColumnConditional)
    (h : predIs Pred.isArray c.pred = false) (args slices : List GoExpr) :
    (columnExpr sx g c).1.map (resolve args slices) = (columnSpec c).map some := by
  simp only [columnExpr, predExpr, columnSpec, map_formExpr, map_addQuant, map_rhsExpr]
  refine formExpr_congr rfl (fun _ => rfl) ?_
  intro h'
  rw [h] at h'
  cases h'

theorem boundExpr_map (sx : GoExpr) (g : G) (b : RangeBound) (h : boundOk b = true)
    (pre post slices : List GoExpr) (hn : g.num = pre.length) :
    (boundExpr g b).1.map (resolve (pre ++ boundArgs sx b ++ post) slices) =
      (boundSpec sx b).map some := by
  cases b with
  | column c => rfl
  | field f =>
    simp only [boundOk, Bool.not_eq_true'] at h
    simp only [boundExpr, boundArgs, freshParam, fieldCondArgs, h, Bool.false_eq_true, if_false,
      VExpr.map, boundSpec, List.append_assoc, List.cons_append, List.nil_append]
    rw [resolve_num _ _ _ _ _ hn]

mutual
theorem condExpr_map (sx : GoExpr) (g : G) (pre post spost : List GoExpr) (hn : g.num = pre.length) :
    ∀ c : Cond, condOk c = true →
      (condExpr sx g c).1.map
          (resolve (pre ++ condArgs sx c ++ post) (g.slices ++ condSlices sx c ++ spost)) =
        (condSpec sx c).map some
  | .bool _, _ => by simp only [condExpr, condSpec, BExpr.map, VExpr.map]
  | .nested n items, h => by
    simp only [condOk] at h
    simp only [condExpr, condSpec, BExpr.map, condArgs, condSlices]
    rw [condList_map (.sel sx n) g true none pre post spost hn items h]
  | .field f, _ => by
    simp only [condExpr, condSpec, condArgs, condSlices]
    exact fieldExpr_map sx g f pre post spost hn
  | .column c, h => by
    simp only [condOk, Bool.not_eq_true'] at h
    simp only [condExpr, condSpec]
    exact columnExpr_map sx g c h _ _
  | .between b, h => by
    simp only [condOk, Bool.and_eq_true] at h
    have hs := boundExpr_state (.sel sx b.fieldName) g b.lower h.1
    have h1 := boundExpr_map (.sel sx b.fieldName) g b.lower h.1 pre
      (boundArgs (.sel sx b.fieldName) b.upper ++ post) (g.slices ++ [] ++ spost) hn
    have h2 := boundExpr_map (.sel sx b.fieldName) (boundExpr g b.lower).2 b.upper h.2
      (pre ++ boundArgs (.sel sx b.fieldName) b.lower) post (g.slices ++ [] ++ spost)
      (by rw [hs]; simp [G.add, hn])
    simp only [List.append_assoc] at h1 h2
    simp only [condExpr, condSpec, betweenExpr, BExpr.map, condArgs, condSlices, List.append_assoc, h1, h2]
    simp only [VExpr.map]
theorem condList_map (sx : GoExpr) (g : G) (first : Bool) (boolean : Option Bool)
    (pre post spost : List GoExpr) (hn : g.num = pre.length) :
    ∀ cs : List Cond, condsOk cs = true →
      (condList sx g first boolean cs).1.map
          (resolve (pre ++ condsArgs sx cs ++ post) (g.slices ++ condsSlices sx cs ++ spost)) =
        (condListSpec sx first boolean cs).map some
  | [], _ => by simp only [condList, condListSpec, BList.map]
  | c :: cs, h => by
    simp only [condsOk, Bool.and_eq_true] at h
    simp only [condList, condsArgs, condsSlices, condListSpec]
    cases hb : isBool c with
    | some b =>
      have hc : c = .bool b := by
        cases c <;> simp [isBool] at hb
        rw [hb]
      subst hc
      simp only [condArgs, condSlices, List.nil_append]
      exact condList_map sx g false (some b) pre post spost hn cs h.2
    | none =>
      simp only [map_addItem]
      have hs := condExpr_state sx g c h.1
      have h1 := condExpr_map sx g pre (condsArgs sx cs ++ post) (condsSlices sx cs ++ spost) hn c h.1
      have h2 := condList_map sx (condExpr sx g c).2 false boolean (pre ++ condArgs sx c) post spost
        (by rw [hs]; simp [G.add, hn]) cs h.2
      rw [hs] at h2
      simp only [G.add, List.append_assoc] at h1 h2
      simp only [List.append_assoc, h1]
      rw [hs]
      simp only [G.add]
      rw [h2]
end

end Verif.Generator
