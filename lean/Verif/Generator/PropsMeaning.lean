import Verif.Generator.Sem

/- C45 and C64: the conditions of a generated statement mean what the tags ask for. -/
namespace Verif.Generator
open Verif.Analysis Verif.Postgres

variable {V : Type}

/-! ### Truth values -/

theorem and3_assoc (a b c : B3) : and3 (and3 a b) c = and3 a (and3 b c) := by
  rcases a with _ | _ | _ <;> rcases b with _ | _ | _ <;> rcases c with _ | _ | _ <;> rfl
theorem or3_assoc (a b c : B3) : or3 (or3 a b) c = or3 a (or3 b c) := by
  rcases a with _ | _ | _ <;> rcases b with _ | _ | _ <;> rcases c with _ | _ | _ <;> rfl
theorem and3_true (a : B3) : and3 a (some true) = a := by rcases a with _ | _ | _ <;> rfl
theorem or3_false (a : B3) : or3 a (some false) = a := by rcases a with _ | _ | _ <;> rfl
theorem not3_not3 (a : B3) : not3 (not3 a) = a := by rcases a with _ | _ | _ <;> rfl

/-! ### Single conditions -/

theorem predForm_value (p : Pred) (hu : p.isUnary = false) (hr : p.isRange = false) :
    (p = .isIn ∧ predForm (some p) = .inList false) ∨ (p = .notIn ∧ predForm (some p) = .inList true) ∨
      (p.isArray = false ∧ ∃ op, predForm (some p) = .binary op ∧ op.text = predText p) := by
  revert hu hr
  cases p <;> simp [Pred.isUnary, Pred.isNullTest, Pred.isBoolean, Pred.isRange, predForm, Pred.isArray,
    BinOp.text, predText]

theorem predForm_unary (W : CondWorld V) (p : Pred) (hu : p.isUnary = true) (c : ColIdent) (r : VExpr GoExpr)
    (a : GoExpr) :
    evalB W (formExpr (.col c) r a (predForm (some p))) = some (askedUnary W p (W.col c)) := by
  revert hu
  cases p <;> intro hu <;> first
    | (simp [Pred.isUnary, Pred.isNullTest, Pred.isBoolean] at hu; done)
    | (simp only [predForm, formExpr, evalB, evalV, askedUnary, Option.map_some, truthVal]
       generalize W.truth (W.col c) = b
       rcases b with _ | _ | _ <;> rfl)
    | (simp only [predForm, formExpr, evalB, evalV, askedUnary, Option.map_some]; rfl)

theorem goPath_addConv (v : Bytes) (x : GoExpr) : goPath (addConv v x) = goPath x := by
  unfold addConv; split <;> rfl

theorem evalV_addCall (W : CondWorld V) (fn : Bytes) (x : VExpr GoExpr) (v : V) (h : evalV W x = some v) :
    evalV W (addCall fn x) = some (applyFn W fn v) := by
  unfold addCall applyFn
  by_cases hf : fn = []
  · simp [hf, h]
  · rw [if_pos (List.length_pos_iff.2 hf), if_neg hf, evalV, h]; rfl

/-- An operator applied to a value and an operand, with or without a quantifier. -/
theorem evalB_binary (W : CondWorld V) (op : BinOp) (p : Pred) (ht : op.text = predText p) (q : Option Quant)
    (ty : Bytes) (l r : VExpr GoExpr) (x y : V) (hl : evalV W l = some x) (hr : evalV W r = some y) :
    evalB W (.binary op l (addQuant q ty r)) = some (asked W p q x y) := by
  rw [evalB, evalBin, hl]
  cases q with
  | none =>
    simp only [addQuant, Option.bind_some]
    cases r <;> first
      | (simp only [evalV] at hr; contradiction)
      | (simp only [hr, Option.map_some, asked, ht])
  | some q =>
    have hc : evalV W (if ty.length > 0 then .cast r (ty ++ b!"[]") else r) = some y := by
      split
      · rw [evalV, hr]
      · exact hr
    simp only [addQuant, Option.bind_some, hc, Option.map_some, asked, ht]
    cases q <;> rfl

theorem eval_field (W : CondWorld V) (sx : GoExpr) {c : Checker} {f : FieldCond} {r : FieldConditional}
    (hs : f.Sound) (hp : (f.func.length = 0 || !predIs Pred.isArray f.pred) = true)
    (h : checkWhereField c f = .ok r) :
    evalB W (fieldSpec sx r) = some (askedField W (goPath sx) f) := by
  simp only [checkWhereField, Res.bind_eq_ok] at h
  obtain ⟨col, _, h⟩ := h
  obtain ⟨h1, h2, h3, h4, h5, h6⟩ := checkFieldCond_keeps h
  simp only at h1 h2 h3 h4 h5 h6
  obtain ⟨p, hpred, hu, hr, _, _⟩ := hs
  unfold fieldSpec askedField
  rw [h2, hpred, h1, h3, h4, h5]
  have hx := evalV_addCall W f.func (.col f.colIdent) (W.col f.colIdent) rfl
  rcases predForm_value p hu hr with ⟨rfl, hf⟩ | ⟨rfl, hf⟩ | ⟨ha, op, hf, ht⟩
  · have : f.func = [] := by simpa [hpred, predIs, Pred.isArray] using hp
    rw [hf, formExpr, evalB, hx]
    simp [negIf, this, applyFn, goPath]
  · have : f.func = [] := by simpa [hpred, predIs, Pred.isArray] using hp
    rw [hf, formExpr, evalB, hx]
    simp [negIf, this, applyFn, goPath]
  · rw [hf, formExpr]
    have hy : evalV W (addCall f.func (.param (addConv r.valuer (.sel sx f.name)))) =
        some (applyFn W f.func (W.field (goPath sx ++ [f.name]))) := by
      apply evalV_addCall
      rw [evalV, goPath_addConv]; rfl
    rw [evalB_binary W op p ht f.quant _ _ _ _ _ hx hy]
    revert ha
    cases p <;> simp [Pred.isArray]

theorem eval_rhs (W : CondWorld V) (c : ColIdent) (h : c.name ≠ []) :
    evalV W (rhsExpr (.column c)) = some (W.col c) := by
  have : c ≠ {} := by rintro rfl; exact h rfl
  simp [rhsExpr, this, evalV]

theorem eval_column (W : CondWorld V) {c : ColCond} {r : ColumnConditional} (hs : c.Sound)
    (ha : predIs Pred.isArray c.pred = false) (hr : predIs Pred.isRange c.pred = false)
    (h : r.pred = c.pred ∧ r.lhs = c.lhs ∧ r.rhs = c.rhs ∧ r.quant = c.quant) :
    evalB W (columnSpec r) = some (askedColumn W c) := by
  obtain ⟨h1, h2, h3, h4⟩ := h
  obtain ⟨p, hpred, hu, _, hfill⟩ := hs
  unfold columnSpec askedColumn
  rw [h1, h2, h3, h4, hpred]
  rw [hpred] at ha hr
  simp only [predIs, Option.any_some] at ha hr
  cases hrhs : c.rhs with
  | none => exact predForm_unary W p (hu.2 hrhs) c.lhs _ _
  | column d =>
    rw [hrhs] at hfill
    have hun : p.isUnary = false := by
      cases hx : p.isUnary with
      | false => rfl
      | true => rw [hu.1 hx] at hrhs; cases hrhs
    rcases predForm_value p hun hr with ⟨rfl, _⟩ | ⟨rfl, _⟩ | ⟨_, op, hf, ht⟩
    · cases ha
    · cases ha
    · rw [hf, formExpr]
      exact evalB_binary W op p ht _ _ _ _ _ _ rfl (eval_rhs W d hfill)
  | literal s =>
    rw [hrhs] at hfill
    have hun : p.isUnary = false := by
      cases hx : p.isUnary with
      | false => rfl
      | true => rw [hu.1 hx] at hrhs; cases hrhs
    rcases predForm_value p hun hr with ⟨rfl, _⟩ | ⟨rfl, _⟩ | ⟨_, op, hf, ht⟩
    · cases ha
    · cases ha
    · rw [hf, formExpr]
      refine evalB_binary W op p ht _ _ _ _ _ _ rfl ?_
      have : s.length > 0 := List.length_pos_iff.2 hfill
      simp [rhsExpr, this, evalV]

theorem eval_bound (W : CondWorld V) (sx : GoExpr) {c : Checker} {col : Column} {wb : BetweenCond} {p : Pred}
    {b : Bound} {r : RangeBound} (h : checkBound c col wb p b = .ok r) :
    evalV W (boundSpec sx r) = some (boundVal W (goPath sx) b) := by
  cases b with
  | column cid =>
    simp only [checkBound, Res.map_eq_ok] at h
    obtain ⟨x, hx, rfl⟩ := h
    have := (checkColCond_pred (mapErr_eq_ok hx)).2.2.1
    simp only [boundSpec, this, rhsCol, evalV, boundVal]
  | field n t =>
    simp only [checkBound, Res.map_eq_ok] at h
    obtain ⟨x, hx, rfl⟩ := h
    have := (checkFieldCond_keeps (mapErr_eq_ok hx)).1
    simp only at this
    simp only [boundSpec, this, evalV, boundVal, goPath_addConv, goPath]

/-- **C45** Whatever the predicate of a between struct, the condition says BETWEEN: the column lies between
the lower and the upper bound, wherever these stand in the struct. -/
theorem C45_rendered (W : CondWorld V) (sx : GoExpr) {c : Checker} {b : BetweenCond} {r : BetweenConditional}
    (h : checkBetween c b = .ok r) :
    evalB W (condSpec sx (.between r)) =
      some (inRange W (W.col b.colIdent) (boundVal W (goPath sx ++ [b.name]) b.lower)
        (boundVal W (goPath sx ++ [b.name]) b.upper)) := by
  simp only [checkBetween, Res.bind_eq_ok, Res.map_eq_ok] at h
  obtain ⟨col, _, l, h1, u, h2, rfl⟩ := h
  rw [condSpec, evalB]
  simp only [evalV, eval_bound W (.sel sx b.name) h1, eval_bound W (.sel sx b.name) h2, Option.bind_some,
    Option.map_some, goPath]

/-! ### Lists of conditions -/

section
variable (W : CondWorld V)

theorem askedAnd_cond {path : List Bytes} {i : WItem} (h : IsCond i) (l : List WItem) :
    askedAnd W path (i :: l) = and3 (askedItem W path i) (askedAnd W path l) := by
  cases h <;> simp [askedAnd]

theorem askedOr_cond {path : List Bytes} {i : WItem} (h : IsCond i) (l : List WItem) :
    askedOr W path (i :: l) = askedOr W path l := by
  cases h <;> simp [askedOr]

theorem checked_cond {c : Checker} {i : WItem} {x : Cond} (hi : IsCond i) (h : checkWhereItem c i = .ok x) :
    isBool x = none := by
  cases hi <;> simp only [checkWhereItem, Res.map_eq_ok] at h <;> obtain ⟨_, _, rfl⟩ := h <;> rfl

theorem condListSpec_cond (sx : GoExpr) (first : Bool) (b : Option Bool) {x : Cond} (hx : isBool x = none)
    (xs : List Cond) :
    condListSpec sx first b (x :: xs) = addItem first b (condSpec sx x) (condListSpec sx false b xs) := by
  rw [condListSpec, hx]

theorem condListSpec_bool (sx : GoExpr) (first : Bool) (b : Option Bool) (o : Bool) (xs : List Cond) :
    condListSpec sx first b (.bool o :: xs) = condListSpec sx false (some o) xs := by
  rw [condListSpec]; rfl

theorem wf_cond {i : WItem} {l : List WItem} (h : WellFormed (i :: l)) : IsCond i := by
  cases h with
  | one _ h => exact h
  | more _ _ _ _ h _ => exact h

/-- What is asked after a connective. -/
def askedAfter (W : CondWorld V) (path : List Bytes) (isOr : Bool) (acc : B3) (l : List WItem) : B3 :=
  if isOr then or3 acc (or3 (askedAnd W path l) (askedOr W path l))
  else or3 (and3 acc (askedAnd W path l)) (askedOr W path l)

mutual
theorem eval_item (c : Checker) (sx : GoExpr) : ∀ (i : WItem) (x : Cond), IsCond i → SoundItem i →
    rendered i = true → checkWhereItem c i = .ok x →
    evalB W (condSpec sx x) = some (askedItem W (goPath sx) i)
  | .bool _, x, hi, _, _, _ => by cases hi
  | .nested n items, x, hi, hs, hp, h => by
    simp only [checkWhereItem, Res.map_eq_ok] at h
    obtain ⟨xs, hxs, rfl⟩ := h
    rw [rendered, Bool.and_eq_true] at hp
    have hne : items ≠ [] := by
      have := hp.1; simp only [gt_iff_lt, decide_eq_true_eq] at this; exact List.length_pos_iff.1 this
    cases hi with
    | nested _ _ hw =>
      cases hs with
      | nested _ _ hs =>
        rw [condSpec, evalB, askedItem]
        exact eval_items c (.sel sx n) items xs hne hw hs hp.2 hxs
  | .field f, x, _, hs, hp, h => by
    simp only [checkWhereItem, Res.map_eq_ok] at h
    obtain ⟨r, hr, rfl⟩ := h
    cases hs with
    | field _ hs =>
      rw [rendered] at hp
      rw [condSpec, askedItem]
      exact eval_field W sx hs hp hr
  | .column cc, x, _, hs, hp, h => by
    simp only [checkWhereItem, checkColCond, Res.map_eq_ok, Res.bind_eq_ok] at h
    obtain ⟨r, ⟨_, _, hr⟩, rfl⟩ := h
    cases hs with
    | column _ hs =>
      rw [rendered, Bool.and_eq_true, Bool.not_eq_true', Bool.not_eq_true'] at hp
      rw [condSpec, askedItem]
      exact eval_column W hs hp.1 hp.2 (checkColCond_pred hr)
  | .between b, x, _, _, hp, h => by
    simp only [checkWhereItem, Res.map_eq_ok] at h
    obtain ⟨r, hr, rfl⟩ := h
    rw [C45_rendered W sx hr, askedItem, askedBetween]
    rw [rendered, renderedRange, Bool.or_eq_true, decide_eq_true_eq, decide_eq_true_eq] at hp
    rcases hp with hp | hp <;> rw [hp] <;> rfl
theorem eval_items (c : Checker) (sx : GoExpr) : ∀ (is : List WItem) (xs : List Cond), is ≠ [] →
    WellFormed is → (∀ i ∈ is, SoundItem i) → renderedAll is = true → checkWhereItems c is = .ok xs →
    evalList W (condListSpec sx true none xs) = some (askedAll W (goPath sx) is)
  | [], _, hne, _, _, _, _ => absurd rfl hne
  | [i], xs, _, hw, hs, hp, h => by
    simp only [checkWhereItems, Res.map_eq_ok, Res.bind_eq_ok, Res.ok.injEq] at h
    obtain ⟨x, hx, _, rfl, rfl⟩ := h
    have hi := wf_cond hw
    rw [renderedAll, Bool.and_eq_true] at hp
    have he := eval_item c sx i x hi (hs i (by simp)) hp.1 hx
    rw [condListSpec_cond sx _ _ (checked_cond hi hx), addItem, if_pos rfl, condListSpec, evalList, he]
    simp only [Option.bind_some, evalRest, askedAll, askedAnd_cond W hi, askedOr_cond W hi, askedAnd, askedOr,
      and3_true, or3_false]
  | i :: .bool o :: is, xs, _, hw, hs, hp, h => by
    simp only [checkWhereItems, checkWhereItem, Res.map_eq_ok, Res.bind_eq_ok, Res.ok.injEq] at h
    obtain ⟨x, hx, _, ⟨_, rfl, ys, hys, rfl⟩, rfl⟩ := h
    have hi := wf_cond hw
    simp only [renderedAll, Bool.and_eq_true] at hp
    have he := eval_item c sx i x hi (hs i (by simp)) hp.1 hx
    rw [condListSpec_cond sx _ _ (checked_cond hi hx), addItem, if_pos rfl, condListSpec_bool, evalList, he]
    simp only [Option.bind_some]
    cases hw with
    | more _ d _ l _ hw =>
      rw [eval_after c sx (d :: l) ys o _ (by simp) hw (fun j hj => hs j (by simp [hj])) hp.2.2 hys]
      cases o <;> simp only [askedAfter, askedAll, askedAnd_cond W hi, askedOr_cond W hi, askedAnd.eq_2,
        askedAnd.eq_3, askedOr.eq_2, and3_true, if_true] <;> simp [askedOr]
  | i :: .nested _ _ :: _, _, _, hw, _, _, _ => by cases hw
  | i :: .field _ :: _, _, _, hw, _, _, _ => by cases hw
  | i :: .column _ :: _, _, _, hw, _, _, _ => by cases hw
  | i :: .between _ :: _, _, _, hw, _, _, _ => by cases hw
theorem eval_after (c : Checker) (sx : GoExpr) : ∀ (is : List WItem) (xs : List Cond) (o : Bool) (acc : B3),
    is ≠ [] → WellFormed is → (∀ i ∈ is, SoundItem i) → renderedAll is = true →
    checkWhereItems c is = .ok xs →
    evalRest W acc (condListSpec sx false (some o) xs) = some (askedAfter W (goPath sx) o acc is)
  | [], _, _, _, hne, _, _, _, _ => absurd rfl hne
  | [i], xs, o, acc, _, hw, hs, hp, h => by
    simp only [checkWhereItems, Res.map_eq_ok, Res.bind_eq_ok, Res.ok.injEq] at h
    obtain ⟨x, hx, _, rfl, rfl⟩ := h
    have hi := wf_cond hw
    rw [renderedAll, Bool.and_eq_true] at hp
    have he := eval_item c sx i x hi (hs i (by simp)) hp.1 hx
    rw [condListSpec_cond sx _ _ (checked_cond hi hx), condListSpec]
    cases o <;> simp [addItem, evalRest, he, askedAfter, askedAnd_cond W hi, askedOr_cond W hi, askedAnd,
      askedOr, and3_true, or3_false]
  | i :: .bool o' :: is, xs, o, acc, _, hw, hs, hp, h => by
    simp only [checkWhereItems, checkWhereItem, Res.map_eq_ok, Res.bind_eq_ok, Res.ok.injEq] at h
    obtain ⟨x, hx, _, ⟨_, rfl, ys, hys, rfl⟩, rfl⟩ := h
    have hi := wf_cond hw
    simp only [renderedAll, Bool.and_eq_true] at hp
    have he := eval_item c sx i x hi (hs i (by simp)) hp.1 hx
    rw [condListSpec_cond sx _ _ (checked_cond hi hx), condListSpec_bool]
    cases hw with
    | more _ d _ l _ hw =>
      have ih := fun acc => eval_after c sx (d :: l) ys o' acc (by simp) hw (fun j hj => hs j (by simp [hj]))
        hp.2.2 hys
      have ho : askedOr W (goPath sx) (i :: .bool o' :: d :: l) =
          if o' then or3 (askedAnd W (goPath sx) (d :: l)) (askedOr W (goPath sx) (d :: l))
          else askedOr W (goPath sx) (d :: l) := by
        rw [askedOr_cond W hi]; cases o' <;> simp [askedOr]
      have ha : askedAnd W (goPath sx) (i :: .bool o' :: d :: l) =
          and3 (askedItem W (goPath sx) i)
            (if o' then some true else askedAnd W (goPath sx) (d :: l)) := by
        rw [askedAnd_cond W hi]; cases o' <;> simp [askedAnd]
      cases o <;> simp only [addItem, Bool.false_eq_true, if_false, evalRest, he, Option.bind_some, ih,
        Option.map_some, askedAfter, ho, ha, if_true] <;> cases o' <;>
        simp [and3_true, and3_assoc]
  | i :: .nested _ _ :: _, _, _, _, _, hw, _, _, _ => by cases hw
  | i :: .field _ :: _, _, _, _, _, hw, _, _, _ => by cases hw
  | i :: .column _ :: _, _, _, _, _, hw, _, _, _ => by cases hw
  | i :: .between _ :: _, _, _, _, _, hw, _, _, _ => by cases hw
end
end

end Verif.Generator
