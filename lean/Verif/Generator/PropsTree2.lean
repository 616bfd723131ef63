import Verif.Generator.PropsTree
import Verif.Generator.PropsFGram

/- Property C94: the parameters of the tree are the fields of the query. -/
namespace Verif.Generator.Gram
open Verif.Analysis Verif.Postgres Verif.Generator.Lex Print

/-! ### Lists of parameters -/

theorem reads_list : ∀ (k : Nat) (ks : List Nat),
    Lex.Reads (ordinal k ++ commaTail (ks.map ordinal)) (commaToks ((k :: ks).map fun k => [.param (itoa k)]))
  | k, [] => by
    have := reads_ordinal k
    simpa [commaTail, commaToks, ordinal] using this
  | k, j :: ks => by
    have h1 := (show Closed b!"," [.punct ','] by decide).append_reads (reads_list j ks)
    have h2 := (reads_ordinal k).append (y := b!"," ++ (ordinal j ++ commaTail (ks.map ordinal))) (by trivial) h1
    simpa [commaTail, commaToks, ordinal] using h2

theorem lex_placeholders {m p : Nat} (h : m ≠ 0) :
    lex (placeholderList m p) = commaToks ((List.range' (p + 1) m).map fun k => [.param (itoa k)]) := by
  obtain ⟨n, rfl⟩ := Nat.exists_eq_succ_of_ne_zero h
  unfold placeholderList
  rw [List.range'_succ, List.map_cons, intercalate_comma]
  exact (reads_list (p + 1) (List.range' (p + 1 + 1) n)).lex

theorem filter_commas : ∀ (l : List Nat),
    (commaToks (l.map fun k => [Tok.param (itoa k)])).filter (fun t => t ≠ .punct ',') = l.map fun k => .param (itoa k)
  | [] => rfl
  | [k] => by simp [commaToks]
  | k :: j :: l => by
    have := filter_commas (j :: l)
    simp only [List.map_cons] at this ⊢
    simp only [commaToks, List.filter_cons, List.cons_append, List.nil_append]
    simpa using this

section
variable {V : Type} {D : DbRow V} {ps : List V}

theorem numbered_val (k : Nat) : treeVal D ps (.const (.param (itoa (k + 1)))) = ps[k]? := by
  simp only [treeVal, constVal, numbered, itoa]
  rw [Nat.ofDigitChars_toDigits (by omega) (by omega)]

theorem list_vals : ∀ (m p : Nat) (vs : List V), (∀ j, j < m → ps[p + j]? = vs[j]?) → vs.length = m →
    ((List.range' (p + 1) m).map fun k => Ex.const (.param (itoa k))).mapM (treeVal D ps) = some vs
  | 0, p, vs, _, h => by
    have : vs = [] := List.eq_nil_of_length_eq_zero h
    subst this
    rfl
  | m + 1, p, [], _, h => by cases h
  | m + 1, p, v :: vs, hj, h => by
    have ih := list_vals m (p + 1) vs (fun j hlt => by
      have := hj (j + 1) (by omega)
      rw [List.getElem?_cons_succ] at this
      rw [← this]
      congr 1
      omega) (by simpa using h)
    have h0 := hj 0 (by omega)
    rw [List.range'_succ, List.map_cons, List.mapM_cons, numbered_val, ih]
    simp only [Nat.add_zero, List.getElem?_cons_zero] at h0
    rw [h0]
    rfl

/-! ### Limits -/

/-- It is not a field of the receiver. -/
def kept : GoExpr → Prop
  | .conv _ x => kept x
  | x => ∀ n, x ≠ .sel recv n

theorem kept_conv {fn : Bytes} {x : GoExpr} (h : kept x) : kept (addConv fn x) := by
  unfold addConv
  split
  · exact h
  · exact h

theorem eval_fallbackOne (l : Option LimitField) (fl : GoExpr → Val) {e : GoExpr} (h : ∀ n, e ≠ .sel recv n) :
    fallbackOne l fl e = fl e := by
  unfold fallbackOne
  split
  · rfl
  · split
    · exact if_neg (h _)
    · rfl

/-- The defaults for LIMIT and OFFSET do not matter for other fields. -/
theorem eval_kept (q : Query) (w : World) : ∀ {e : GoExpr}, kept e → eval (fallback q w).field e = eval w.field e
  | .conv fn x, h => by
    have ih : eval (fallback q w).field x = eval w.field x := eval_kept q w h
    rw [eval, eval, ih]
  | .ident _, h => by
    simp only [eval, fallback]
    rw [eval_fallbackOne _ _ h, eval_fallbackOne _ _ h]
  | .sel _ _, h => by
    simp only [eval, fallback]
    rw [eval_fallbackOne _ _ h, eval_fallbackOne _ _ h]
  | .index _ _, h => by
    simp only [eval, fallback]
    rw [eval_fallbackOne _ _ h, eval_fallbackOne _ _ h]
  | .addr _, h => by
    simp only [eval, fallback]
    rw [eval_fallbackOne _ _ h, eval_fallbackOne _ _ h]

/-! The fields that the conditions are about. -/

theorem kept_noSel : kept noSel := by
  intro n h
  simp [noSel, recv] at h

theorem form_slots {l r : VExpr GoExpr} {a : GoExpr} {p : PForm} {e : GoExpr} (h : e ∈ (formExpr l r a p).slots) :
    e ∈ l.slots ∨ e ∈ r.slots ∨ e = a := by
  cases p <;> simp only [formExpr, BExpr.slots, List.mem_append, List.mem_singleton] at h
  · rcases h with h | h
    · exact .inl h
    · exact .inr (.inl h)
  · rcases h with h | h
    · exact .inl h
    · exact .inr (.inr h)
  · exact .inl h
  · exact .inl h
  · exact .inl h

theorem call_slots {α : Type} (fn : Bytes) (x : VExpr α) : (addCall fn x).slots = x.slots := by
  unfold addCall
  split <;> rfl

theorem quant_slots {α : Type} (q : Option Quant) (ty : Bytes) (x : VExpr α) : (addQuant q ty x).slots = x.slots := by
  unfold addQuant
  split
  · rfl
  · rw [VExpr.slots]
    split <;> rfl

theorem rhs_slots {α : Type} (r : Rhs) : (rhsExpr r : VExpr α).slots = [] := by
  unfold rhsExpr
  split
  · rfl
  · split <;> rfl
  · split <;> rfl

theorem bound_slots {sx : GoExpr} {b : RangeBound} {e : GoExpr} (hsx : sx ≠ recv) (h : e ∈ (boundSpec sx b).slots) :
    kept e := by
  cases b with
  | column c => cases h
  | field f =>
    simp only [boundSpec, VExpr.slots, List.mem_singleton] at h
    subst h
    exact kept_conv (fun n hn => hsx (GoExpr.sel.inj hn).1)

theorem sel_ne_recv (x : GoExpr) (n : Bytes) : GoExpr.sel x n ≠ recv := by
  intro h
  cases h

mutual
theorem cond_slots {sx : GoExpr} (hsx : sx ≠ recv) : ∀ (x : Cond) (e : GoExpr), e ∈ (condSpec sx x).slots → kept e
  | .bool _, e, h => by rw [condSpec, BExpr.slots] at h; cases h
  | .nested n items, e, h => by
    rw [condSpec, BExpr.slots] at h
    exact conds_slots (sel_ne_recv sx n) true none items e h
  | .field f, e, h => by
    rw [condSpec, fieldSpec] at h
    rcases form_slots h with h | h | rfl
    · rw [call_slots] at h; cases h
    · rw [quant_slots, call_slots] at h
      simp only [VExpr.slots, List.mem_singleton] at h
      subst h
      exact kept_conv (fun n hn => hsx (GoExpr.sel.inj hn).1)
    · exact fun n hn => hsx (GoExpr.sel.inj hn).1
  | .column c, e, h => by
    rw [condSpec, columnSpec] at h
    rcases form_slots h with h | h | rfl
    · cases h
    · rw [quant_slots, rhs_slots] at h; cases h
    · exact kept_noSel
  | .between b, e, h => by
    rw [condSpec, BExpr.slots, List.mem_append, List.mem_append] at h
    rcases h with (h | h) | h
    · cases h
    · exact bound_slots (sel_ne_recv _ _) h
    · exact bound_slots (sel_ne_recv _ _) h
theorem conds_slots {sx : GoExpr} (hsx : sx ≠ recv) : ∀ (first : Bool) (b : Option Bool) (l : List Cond) (e : GoExpr),
    e ∈ (condListSpec sx first b l).slots → kept e
  | first, b, [], e, h => by rw [condListSpec, BList.slots] at h; cases h
  | first, b, x :: l, e, h => by
    rw [condListSpec] at h
    split at h
    · exact conds_slots hsx _ _ l e h
    · have key : ∀ k, e ∈ (BList.cons k (condSpec sx x) (condListSpec sx false b l)).slots → kept e := by
        intro k hk
        rw [BList.slots, List.mem_append] at hk
        rcases hk with hk | hk
        · exact cond_slots hsx x e hk
        · exact conds_slots hsx false b l e hk
      unfold addItem at h
      split at h
      · exact key _ h
      · split at h
        · exact key _ h
        · exact key _ h
        · exact conds_slots hsx false none l e h
end

theorem fieldSel_kept (q : Query) (f : FieldInfo) : kept (fieldSel (inputRoot q) f) := by
  intro n h
  have h1 := (GoExpr.sel.inj h).1
  have key : ∀ (l : List SelNode) (x : GoExpr), x ≠ recv → l.foldl (fun x n => GoExpr.sel x n.name) x ≠ recv := by
    intro l
    induction l with
    | nil => intro x hx; exact hx
    | cons a l ih => intro x _; exact ih _ (sel_ne_recv _ _)
  refine key _ _ ?_ h1
  unfold inputRoot
  split
  · intro h; simp [recv] at h
  · exact sel_ne_recv _ _

theorem pkeyExpr_kept (q : Query) (t : TargetInfo) (p : FieldWrite) : kept (pkeyExpr q t p) := by
  unfold pkeyExpr
  split
  · exact kept_conv (fieldSel_kept q _)
  · exact fieldSel_kept q _

theorem pkey_slots (q : Query) (t : TargetInfo) : ∀ (first : Bool) (l : List FieldWrite) (e : GoExpr),
    e ∈ (pkeySpec q t first l).slots → kept e
  | _, [], e, h => by rw [pkeySpec, BList.slots] at h; cases h
  | first, p :: l, e, h => by
    rw [pkeySpec, BList.slots, List.mem_append] at h
    rcases h with h | h
    · simp only [BExpr.slots, VExpr.slots, List.nil_append, List.mem_singleton] at h
      subst h
      exact pkeyExpr_kept q t p
    · exact pkey_slots q t false l e h

theorem where_slots {q : Query} {t : TargetInfo} {l : BList GoExpr} (h : whereSpec q t = some l) (e : GoExpr)
    (he : e ∈ l.slots) : kept e := by
  unfold whereSpec at h
  split at h
  · cases h
    exact pkey_slots q t _ _ e he
  · split at h
    · cases h
    · split at h
      · cases h
        exact conds_slots (sel_ne_recv _ _) _ _ _ e he
      · cases h

theorem join_slots {q : Query} {t : TargetInfo} {j : TableJoin GoExpr} (h : j ∈ joinsSpec q t) (e : GoExpr)
    (he : e ∈ j.cond.slots) : kept e := by
  unfold joinsSpec at h
  split at h
  · cases h
  · rw [List.mem_iff_getElem?] at h
    obtain ⟨i, hi⟩ := h
    rw [List.getElem?_zipWith] at hi
    split at hi
    · cases hi
      exact conds_slots (by intro h; simp [noSel, recv] at h) _ _ _ e he
    · cases hi

/-! ### What is sent -/

variable {cat : Catalog} {q : Query} {t : TargetInfo} {c : Code}

theorem sent_arg (h : Plain cat q t) (hc : generate q t = some c) (hf : q.filter = none) (w : World) {args : List Val}
    (ha : sentArgs q w c = some args) {k : Nat} {e : GoExpr} (he : c.args[k]? = some e) (hk : kept e) :
    args[k]? = some (eval w.field e) := by
  by_cases hs : c.g.slices = []
  · have h1 : sentArgs q w c = some (c.args.map (eval (fallback q w).field)) := by
      simp [sentArgs, buildParams, passesParams, h.one, hs, hf]
    rw [h1, Option.some.injEq] at ha
    rw [← ha, List.getElem?_map, he, Option.map_some, eval_kept q w hk]
  · rw [C40_arguments h hc hs w, Option.some.injEq] at ha
    have hlt := (List.getElem?_eq_some_iff.1 he).1
    rw [← ha, List.getElem?_append_left (by simpa using hlt), List.getElem?_map, he]
    rfl

/-- What a slot stands for. -/
def slotExpr (c : Code) (a : Slot) : GoExpr := (resolve c.args c.g.slices a).getD noSel

/-- The parameters that are sent are what the conditions are about, if the values of the fields are. -/
theorem bound_given {W : CondWorld V} {sent : Val → V} {w : World} {args : List Val} (h : Plain cat q t)
    (hc : generate q t = some c) (ha : sentArgs q w c = some args) (hmax : args.length ≤ 65535)
    (hw : Filled w c) {a : Slot} (hm : a ∈ c.slots)
    (hF : ∀ (k : Nat) e, a = .num (k + 1 : Nat) → c.args[k]? = some e →
      (args.map sent)[k]? = some (W.field (goPath e)))
    (hS : ∀ e ∈ c.g.slices, W.elems (W.field (goPath e)) = (w.slice e).map sent) :
    Bound D (args.map sent) W (fun a => (Generator.slotText w c a).getD []) (slotExpr c) a := by
  obtain ⟨e, he⟩ := h.resolves hc hm
  cases a with
  | num n =>
    obtain ⟨h1, h2⟩ := C39_bound h hc n hm
    obtain ⟨k, rfl⟩ : ∃ k : Nat, n = ((k + 1 : Nat) : Int) := ⟨(n - 1).toNat, by omega⟩
    have h3 : c.args[k]? = some e := by
      simp only [resolve] at he
      rw [if_pos h1] at he
      rw [← he]
      congr 1
      omega
    have h4 := hF k e rfl h3
    have h6 : Generator.slotText w c (.num (k + 1 : Nat)) = some (ordinal (k + 1)) := by
      simp only [Generator.slotText]
      rw [if_pos h1]
      rfl
    show isParam (atomEx (lex ((Generator.slotText w c (.num (k + 1 : Nat))).getD []))) = true ∧
      treeVal D (args.map sent) (atomEx (lex ((Generator.slotText w c (.num (k + 1 : Nat))).getD []))) = _
    rw [h6, Option.getD_some, lex_ordinal]
    refine ⟨rfl, ?_⟩
    show treeVal D (args.map sent) (.const (.param (itoa (k + 1)))) = _
    rw [numbered_val, h4, slotExpr, he]
    rfl
  | slice k =>
    obtain ⟨h1, h2⟩ := C39_lists h hc k hm
    obtain ⟨k, rfl⟩ : ∃ j, k = j + 1 := ⟨k - 1, by omega⟩
    have h3 : c.g.slices[k]? = some e := by
      simp only [resolve] at he
      rw [if_pos h1] at he
      exact he
    obtain ⟨h4, h5⟩ := C40_placeholders h hc w args ha hmax k e h3
    have h6 : (w.slice e).length ≠ 0 := by
      intro h0
      obtain ⟨x, hx, hne⟩ := hw _ hm
      rw [h4, h0] at hx
      cases hx
      exact hne rfl
    show (listTree (lex ((Generator.slotText w c (.slice (k + 1))).getD []))).mapM (treeVal D (args.map sent)) = _
    rw [h4, Option.getD_some, lex_placeholders h6, listTree, filter_commas, List.map_map]
    have h7 := list_vals (D := D) (ps := args.map sent) (w.slice e).length (c.args.length + before w c k)
      ((w.slice e).map sent) (fun j hj => by
        rw [List.getElem?_map, List.getElem?_map, h5 j hj]) (by simp)
    rw [slotExpr, he, Option.getD_some, hS e (List.mem_of_getElem? h3), ← h7]
    rfl

/-- The same for a field that is not that of LIMIT or OFFSET. -/
theorem bound_of {W : CondWorld V} {sent : Val → V} {w : World} {args : List Val} (h : Plain cat q t)
    (hc : generate q t = some c) (hf : q.filter = none) (ha : sentArgs q w c = some args) (hmax : args.length ≤ 65535)
    (hw : Filled w c) (hF : Fields sent w c W) {a : Slot} (hm : a ∈ c.slots)
    (hk : ∀ e, resolve c.args c.g.slices a = some e → kept e) :
    Bound D (args.map sent) W (fun a => (Generator.slotText w c a).getD []) (slotExpr c) a := by
  refine bound_given h hc ha hmax hw hm (fun k e hx he => ?_) hF.slice
  subst hx
  have h1 : resolve c.args c.g.slices (.num (k + 1 : Nat)) = some e := by
    obtain ⟨h1, h2⟩ := C39_bound h hc _ hm
    simp only [resolve]
    rw [if_pos h1, ← he]
    congr 1
    omega
  rw [List.getElem?_map, sent_arg h hc hf w ha he (hk e h1), Option.map_some, hF.field e (List.mem_of_getElem? he)]

end

end Verif.Generator.Gram
