import Verif.Generator.PropsGoQuery
import Verif.Generator.PropsGoScope6

/- C110: the arguments of a generated method. -/
namespace Verif.Generator.Scoped
open Verif.Analysis Verif.Postgres

mutual
/-- No conditions are nested in a blank field. -/
def namedItem : WItem → Bool
  | .nested n l => n ≠ b!"_" && namedItems l
  | _ => true
def namedItems : List WItem → Bool
  | [] => true
  | i :: l => namedItem i && namedItems l
end

/-- The argument is a field, or a function of package pgsql applied to one. -/
def Typed (F : List Analysis.Field) (x : GoExpr) : Prop :=
  ∃ y T, HasTy F y T ∧ (x = y ∨ ∃ f, x = .conv f y)

theorem addConv_typed {F : List Analysis.Field} {v : Bytes} {y : GoExpr} {T : Ty} (h : HasTy F y T) :
    Typed F (addConv v y) := by
  unfold addConv
  split
  · exact ⟨y, T, h, .inr ⟨v, rfl⟩⟩
  · exact ⟨y, T, h, .inl rfl⟩

theorem checkBound_typed {G F : List Analysis.Field} {sx : GoExpr}
    (base : ∀ h t, (h, t) ∈ F → h.name ≠ b!"_" → HasTy G (.sel sx h.name) t) {c : Checker} {col : Column}
    {wb : BetweenCond} {p : Pred} {b : Bound} {r : RangeBound} (hb : BoundIn F b)
    (h : checkBound c col wb p b = .ok r) : ∀ x ∈ boundArgs sx r, Typed G x := by
  cases b with
  | column cid =>
    simp only [checkBound, Res.map_eq_ok] at h
    obtain ⟨_, _, rfl⟩ := h
    simp [boundArgs]
  | field n ti =>
    simp only [checkBound, Res.map_eq_ok] at h
    obtain ⟨g, hg, rfl⟩ := h
    have hk := (checkFieldCond_keeps (mapErr_eq_ok hg)).1
    obtain ⟨f, hf, hn, hne⟩ := hb n ti rfl
    intro x hx
    simp only [boundArgs, fieldCondArgs] at hx
    split at hx
    · cases hx
    · rw [List.mem_singleton] at hx
      rw [hx, hk]
      refine addConv_typed (T := f.2) ?_
      have := base f.1 f.2 hf (hn ▸ hne)
      rwa [hn] at this

mutual
theorem checkItem_typed {G : List Analysis.Field} (c : Checker) : ∀ (i : WItem) (F : List Analysis.Field) (sx : GoExpr)
    (r : Cond), (∀ h t, (h, t) ∈ F → h.name ≠ b!"_" → HasTy G (.sel sx h.name) t) → ItemIn F i → namedItem i = true →
    checkWhereItem c i = .ok r →
    (∀ x ∈ condArgs sx r, Typed G x) ∧ ∀ x ∈ condSlices sx r, ∃ T, HasTy G x T ∧ Indexed T
  | .bool _, F, sx, r, _, _, _, h => by cases h; simp [condArgs, condSlices]
  | .column cc, F, sx, r, _, _, _, h => by
    simp only [checkWhereItem, Res.map_eq_ok] at h
    obtain ⟨_, _, rfl⟩ := h
    simp [condArgs, condSlices]
  | .nested n items, F, sx, r, base, hi, hn, h => by
    simp only [checkWhereItem, Res.map_eq_ok] at h
    obtain ⟨cs, hcs, rfl⟩ := h
    simp only [namedItem, Bool.and_eq_true, decide_eq_true_eq] at hn
    cases hi with
    | nested hm he hs hl =>
      simp only [condArgs, condSlices]
      refine checkItems_typed c items _ (.sel sx n) cs ?_ hl hn.2 hcs
      intro h t hm' hne
      refine .sel ?_ hs hm' hne
      rw [he]
      exact base _ _ hm (he ▸ hn.1)
  | .field f, F, sx, r, base, hi, _, h => by
    simp only [checkWhereItem, Res.map_eq_ok] at h
    obtain ⟨g, hg, rfl⟩ := h
    simp only [checkWhereField, Res.bind_eq_ok] at hg
    obtain ⟨_, _, hg⟩ := hg
    have hk := checkFieldCond_keeps hg
    cases hi with
    | field hm hne he hx =>
      have hb := base _ _ hm hne
      rw [← he] at hb
      constructor
      · intro x hx
        simp only [condArgs, fieldCondArgs] at hx
        split at hx
        · cases hx
        · rw [List.mem_singleton] at hx
          rw [hx, hk.1]
          exact addConv_typed hb
      · intro x hx'
        simp only [condSlices, fieldCondSlices] at hx'
        split at hx'
        · next hp =>
          rw [List.mem_singleton] at hx'
          rw [hx', hk.1]
          exact ⟨_, hb, hx (by rw [hk.2.1] at hp; exact hp)⟩
        · cases hx'
  | .between b, F, sx, r, base, hi, _, h => by
    simp only [checkWhereItem, checkBetween, Res.map_eq_ok, Res.bind_eq_ok] at h
    obtain ⟨x, ⟨col, _, l, h1, u, h2, rfl⟩, rfl⟩ := h
    cases hi with
    | between hm hne he hs hl hu =>
      have hb := base _ _ hm hne
      rw [← he] at hb
      constructor
      · intro x hx
        simp only [condArgs, List.mem_append] at hx
        rcases hx with hx | hx
        · exact checkBound_typed (fun h t hm hn => .sel hb hs hm hn) hl h1 x hx
        · exact checkBound_typed (fun h t hm hn => .sel hb hs hm hn) hu h2 x hx
      · simp [condSlices]
theorem checkItems_typed {G : List Analysis.Field} (c : Checker) : ∀ (l : List WItem) (F : List Analysis.Field)
    (sx : GoExpr) (r : List Cond), (∀ h t, (h, t) ∈ F → h.name ≠ b!"_" → HasTy G (.sel sx h.name) t) →
    (∀ i ∈ l, ItemIn F i) → namedItems l = true → checkWhereItems c l = .ok r →
    (∀ x ∈ condsArgs sx r, Typed G x) ∧ ∀ x ∈ condsSlices sx r, ∃ T, HasTy G x T ∧ Indexed T
  | [], F, sx, r, _, _, _, h => by cases h; simp [condsArgs, condsSlices]
  | i :: l, F, sx, r, base, hi, hn, h => by
    simp only [checkWhereItems, Res.map_eq_ok, Res.bind_eq_ok] at h
    obtain ⟨x, hx, xs, hxs, rfl⟩ := h
    simp only [namedItems, Bool.and_eq_true] at hn
    have h1 := checkItem_typed c i F sx x base (hi i List.mem_cons_self) hn.1 hx
    have h2 := checkItems_typed c l F sx xs base (fun i h => hi i (List.mem_cons_of_mem _ h)) hn.2 hxs
    simp only [condsArgs, condsSlices, List.mem_append]
    exact ⟨fun x hx => hx.elim (h1.1 x) (h2.1 x), fun x hx => hx.elim (h1.2 x) (h2.2 x)⟩
end

/-! ### The fields of the query struct -/

/-- A field of the name is there, it is not blank, and its type is as required. -/
def Has (F : List Analysis.Field) (n : Bytes) (P : Ty → Prop) : Prop :=
  ∃ f ∈ F, f.1.name = n ∧ n ≠ b!"_" ∧ P f.2

structure RefSt (F : List Analysis.Field) (q : Query) : Prop where
  wher : ∀ w, q.wher = some w → Has F w.fieldName fun t => ∃ fs, structOf t = some fs ∧ ∀ i ∈ w.items, ItemIn fs.toList i
  limit : ∀ l, q.limit = some l → l.name = [] ∨ Has F l.name fun t => isIntegerType t = true
  offset : ∀ l, q.offset = some l → l.name = [] ∨ Has F l.name fun t => isIntegerType t = true
  filter : ∀ n, q.filter = some n → Has F n fun t => isFilterType t = .ok true
  handler : ∀ x, q.errorHandler = some x →
    Has F x.1 fun t => if x.2 then isErrorInfoHandler t = true else isErrorHandler t = true
  context : ∀ n, q.context = some n → Has F n fun t => isContext t = true
  rows : ∀ x, q.rowsAffected = some x → Has F x.1 fun t => isIntegerType t = true ∧ x.2 = analyzeTypeKind t

theorem RefSt.other {F : List Analysis.Field} {q q' : Query} (h : RefSt F q) (h1 : q'.wher = q.wher)
    (h2 : q'.limit = q.limit) (h3 : q'.offset = q.offset) (h4 : q'.filter = q.filter)
    (h5 : q'.errorHandler = q.errorHandler) (h6 : q'.context = q.context) (h7 : q'.rowsAffected = q.rowsAffected) :
    RefSt F q' :=
  ⟨h1 ▸ h.wher, h2 ▸ h.limit, h3 ▸ h.offset, h4 ▸ h.filter, h5 ▸ h.handler, h6 ▸ h.context, h7 ▸ h.rows⟩

theorem limitField_ref {F : List Analysis.Field} {h : FieldHdr} {t : Ty} (hm : (h, t) ∈ F) {l : LimitField}
    (e : limitField h t = .ok l) : l.name = [] ∨ Has F l.name fun t => isIntegerType t = true := by
  simp only [limitField, Res.bind_eq_ok, Res.map_eq_ok] at e
  obtain ⟨_, h1, _, _, rfl⟩ := e
  by_cases hn : h.name = b!"_"
  · left; simp [hn]
  · right
    rw [if_pos hn] at h1
    have := failIf_ok h1
    simp only [ne_eq, hn, not_false_eq_true, if_true]
    exact ⟨_, hm, rfl, hn, by simpa using this⟩

theorem analyzeDirective_ref {F : List Analysis.Field} {s s' : St} {h : FieldHdr} {t : Ty} {d : Bytes} (hm : (h, t) ∈ F)
    (f : RefSt F s.q) (e : analyzeDirective s h t d = .ok s') : RefSt F s'.q := by
  unfold analyzeDirective at e
  split at e
  · simp only [analyzeAll, Res.bind_eq_ok, Res.map_eq_ok] at e
    obtain ⟨_, _, _, _, _, _, rfl⟩ := e; exact f.other rfl rfl rfl rfl rfl rfl rfl
  · simp only [analyzeDefault, Res.bind_eq_ok, Res.map_eq_ok] at e
    obtain ⟨_, _, _, _, rfl⟩ := e; exact f.other rfl rfl rfl rfl rfl rfl rfl
  · simp only [analyzeForce, Res.bind_eq_ok, Res.map_eq_ok] at e
    obtain ⟨_, _, _, _, _, _, rfl⟩ := e; exact f.other rfl rfl rfl rfl rfl rfl rfl
  · simp only [analyzeOptional, Res.bind_eq_ok, Res.map_eq_ok] at e
    obtain ⟨_, _, _, _, _, _, rfl⟩ := e; exact f.other rfl rfl rfl rfl rfl rfl rfl
  · simp only [analyzeReturn, Res.bind_eq_ok, Res.map_eq_ok] at e
    obtain ⟨_, _, _, _, _, _, _, _, rfl⟩ := e; exact f.other rfl rfl rfl rfl rfl rfl rfl
  · simp only [analyzeLimit, Res.bind_eq_ok, Res.map_eq_ok] at e
    obtain ⟨_, _, _, _, _, h1, rfl⟩ := e
    exact { f with limit := fun l hl => by cases hl; exact limitField_ref hm h1 }
  · simp only [analyzeOffset, Res.bind_eq_ok, Res.map_eq_ok] at e
    obtain ⟨_, _, _, _, _, h1, rfl⟩ := e
    exact { f with offset := fun l hl => by cases hl; exact limitField_ref hm h1 }
  · simp only [analyzeOrderBy, Res.bind_eq_ok, Res.map_eq_ok] at e
    obtain ⟨_, _, _, _, _, _, rfl⟩ := e; exact f.other rfl rfl rfl rfl rfl rfl rfl
  · simp only [analyzeOverride, Res.bind_eq_ok] at e
    obtain ⟨_, _, e⟩ := e
    split at e
    · cases e; exact f.other rfl rfl rfl rfl rfl rfl rfl
    · split at e
      · cases e; exact f.other rfl rfl rfl rfl rfl rfl rfl
      · simp at e
  · simp at e

theorem not_blank {n : Bytes} {k : Fld} (h : List.lookup (tolower n) fldTable = some k) : n ≠ b!"_" := by
  rintro rfl
  revert h
  cases k <;> decide

theorem analyzeField_ref {F : List Analysis.Field} {env : Env} {s s' : St} {h : FieldHdr} {t : Ty} (hm : (h, t) ∈ F)
    (f : RefSt F s.q) (e : analyzeField env s h t = .ok s') : RefSt F s'.q := by
  unfold analyzeField at e
  split at e
  · next hk =>
    simp only [analyzeWhere, Res.bind_eq_ok] at e
    obtain ⟨_, _, e⟩ := e
    split at e
    · simp at e
    · next n fs hg =>
      rw [Res.map_eq_ok] at e
      obtain ⟨items, hi, rfl⟩ := e
      refine { f with wher := fun w hw => ?_ }
      cases hw
      exact ⟨_, hm, rfl, not_blank hk, fs, structOf_getStruct hg,
        whereItems_in _ _ _ _ fs [] items (fun _ h => h) (by simp) hi⟩
  · simp only [analyzeJoin, Res.bind_eq_ok] at e
    obtain ⟨_, _, e⟩ := e
    split at e
    · simp at e
    · rw [Res.map_eq_ok] at e
      obtain ⟨p, hp, rfl⟩ := e
      exact f.other rfl rfl rfl rfl rfl rfl rfl
  · simp only [analyzeOnConflict, Res.bind_eq_ok] at e
    obtain ⟨_, _, e⟩ := e
    split at e
    · simp at e
    · simp only [Res.bind_eq_ok, Res.map_eq_ok] at e
      obtain ⟨oc, ho, _, _, rfl⟩ := e
      exact f.other rfl rfl rfl rfl rfl rfl rfl
  · simp only [analyzeResult, Res.bind_eq_ok, Res.map_eq_ok] at e
    obtain ⟨_, _, p, hp, rfl⟩ := e
    exact f.other rfl rfl rfl rfl rfl rfl rfl
  · simp only [analyzeLimit, Res.bind_eq_ok, Res.map_eq_ok] at e
    obtain ⟨_, _, _, _, _, h1, rfl⟩ := e
    exact { f with limit := fun l hl => by cases hl; exact limitField_ref hm h1 }
  · simp only [analyzeOffset, Res.bind_eq_ok, Res.map_eq_ok] at e
    obtain ⟨_, _, _, _, _, h1, rfl⟩ := e
    exact { f with offset := fun l hl => by cases hl; exact limitField_ref hm h1 }
  · next hk =>
    simp only [analyzeRowsAffected, Res.bind_eq_ok, Res.map_eq_ok] at e
    obtain ⟨_, _, _, h1, rfl⟩ := e
    refine { f with rows := fun x hx => ?_ }
    cases hx
    exact ⟨_, hm, rfl, not_blank hk, by simpa using failIf_ok h1, rfl⟩
  · unfold analyzeTypedField at e
    rw [Res.bind_eq_ok] at e
    obtain ⟨a, ha, e⟩ := e
    split at e
    · next hacc =>
      have hne := isAccessible_name (hacc ▸ ha)
      rw [Res.bind_eq_ok] at e
      obtain ⟨isF, hf, e⟩ := e
      split at e
      · next h1 =>
        simp only [analyzeFilterField, Res.map_eq_ok] at e
        obtain ⟨_, _, rfl⟩ := e
        refine { f with filter := fun x hx => ?_ }
        cases hx
        exact ⟨_, hm, rfl, hne, h1 ▸ hf⟩
      split at e
      · next h1 =>
        simp only [analyzeErrorHandler, Res.map_eq_ok] at e
        obtain ⟨_, _, rfl⟩ := e
        refine { f with handler := fun x hx => ?_ }
        cases hx
        exact ⟨_, hm, rfl, hne, by simpa using h1⟩
      split at e
      · next h1 =>
        simp only [analyzeErrorHandler, Res.map_eq_ok] at e
        obtain ⟨_, _, rfl⟩ := e
        refine { f with handler := fun x hx => ?_ }
        cases hx
        exact ⟨_, hm, rfl, hne, by simpa using h1⟩
      split at e
      · next h1 =>
        simp only [analyzeContext, Res.map_eq_ok] at e
        obtain ⟨_, _, rfl⟩ := e
        refine { f with context := fun x hx => ?_ }
        cases hx
        exact ⟨_, hm, rfl, hne, h1⟩
      · cases e; exact f
    · cases e; exact f

theorem queryFields_ref {F : List Analysis.Field} {env : Env} {s s' : St} {fs : List Analysis.Field}
    (hs : ∀ f ∈ fs, f ∈ F) (f : RefSt F s.q) (e : queryFields env s fs = .ok s') : RefSt F s'.q := by
  induction fs generalizing s with
  | nil => rw [queryFields] at e; cases e; exact f
  | cons fd fs ih =>
    rw [queryFields, Res.bind_eq_ok] at e
    obtain ⟨s1, h1, e⟩ := e
    refine ih (fun x hx => hs x (List.mem_cons_of_mem _ hx)) ?_ e
    have hm := hs fd (List.mem_cons_self ..)
    unfold queryStep at h1
    split at h1
    · cases h1; exact f
    · rw [Res.bind_eq_ok] at h1
      obtain ⟨d, _, h1⟩ := h1
      split at h1
      · exact analyzeDirective_ref hm f h1
      · exact analyzeField_ref hm f h1

theorem analyzeQuery_ref {env : Env} {cache : Cache} {n : Bytes} {fs : List Analysis.Field} {s : St}
    (e : analyzeQuery env cache n fs = .ok s) : RefSt fs s.q := by
  obtain ⟨k, r, s1, _, _, _, h⟩ := analyzeQuery_split e
  exact queryFields_ref (fun _ h => h) ⟨by simp, by simp, by simp, by simp, by simp, by simp, by simp⟩ h

end Verif.Generator.Scoped
