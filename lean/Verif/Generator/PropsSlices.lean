import Verif.Generator.Run
import Verif.Generator.PropsParams2
import Verif.Gosql.Props

/- C40: the arguments and the text for slices compared by IN. -/
namespace Verif.Generator
open Verif.Analysis Verif.Postgres

theorem setAt_append (pre post : List Val) (x v : Val) (i : Int) (h : i = pre.length) :
    setAt (pre ++ x :: post) i v = some (pre ++ v :: post) := by
  unfold setAt
  have h1 : i.toNat = pre.length := by omega
  rw [if_pos ⟨by omega, by rw [h1]; simp⟩, h1]
  simp

theorem assignFrom_append (vs : List Val) : ∀ (pre mid post : List Val) (i : Int), i = pre.length →
    mid.length = vs.length → assignFrom (pre ++ (mid ++ post)) i vs = some (pre ++ (vs ++ post)) := by
  induction vs with
  | nil =>
    intro pre mid post i _ hm
    have : mid = [] := by simpa using hm
    simp [assignFrom, this]
  | cons v vs ih =>
    intro pre mid post i hi hm
    cases mid with
    | nil => simp at hm
    | cons x mid =>
      rw [assignFrom, List.cons_append, setAt_append _ _ _ _ _ hi, Option.bind_some]
      have := ih (pre ++ [v]) mid post (i + 1) (by simp; omega) (by simpa using hm)
      simpa using this

/-- The sum of the lengths is that of the flattened list. -/
theorem sum_lens (ss : List (List Val)) : (ss.map List.length).sum = ss.flatten.length := by
  induction ss with
  | nil => rfl
  | cons s ss ih => simp only [List.map_cons, List.sum_cons, List.flatten_cons, List.length_append, ih]

theorem assignSlices_append (ss : List (List Val)) : ∀ (pre mid : List Val) (pos : Int),
    pos = pre.length → mid.length = ss.flatten.length →
    assignSlices (pre ++ mid) ((positions pos (ss.map List.length)).zip ss) = some (pre ++ ss.flatten) := by
  induction ss with
  | nil =>
    intro pre mid pos _ hm
    have : mid = [] := by simpa using hm
    simp [assignSlices, positions, this]
  | cons s ss ih =>
    intro pre mid pos hp hm
    have hm' : mid.length = s.length + ss.flatten.length := by
      rw [hm, List.flatten_cons, List.length_append]
    have hsplit : mid = mid.take s.length ++ mid.drop s.length := (List.take_append_drop _ _).symm
    simp only [List.map_cons, positions, List.zip_cons_cons, assignSlices]
    rw [hsplit, assignFrom_append s pre _ _ pos hp (by simp; omega), Option.bind_some]
    have := ih (pre ++ s) (mid.drop s.length) (pos + s.length) (by simp; omega) (by rw [List.length_drop]; omega)
    simpa using this

theorem sliceParams_eq (w : World) (c : Code) (h : c.g.num = c.args.length) :
    sliceParams w c = some (c.args.map (eval w.field) ++ (c.g.slices.map w.slice).flatten) := by
  have hl : sliceLens w c = (c.g.slices.map w.slice).map List.length := by
    simp [sliceLens, Function.comp_def]
  unfold sliceParams
  rw [hl, sum_lens, h, makeParams, if_pos (by omega), Option.bind_some]
  generalize hfl : (c.g.slices.map w.slice).flatten = fl
  have hrep : List.replicate (((c.args.length : Int) + (fl.length : Nat)).toNat) Val.nil =
      [] ++ (List.replicate c.args.length Val.nil ++ List.replicate fl.length Val.nil) := by
    rw [List.nil_append, List.replicate_append_replicate]; congr 1
  rw [hrep, assignFrom_append _ [] _ _ 0 (by simp) (by simp), Option.bind_some, List.nil_append]
  rw [← hfl]
  exact assignSlices_append (c.g.slices.map w.slice) _ _ _ (by simp) (by rw [hfl]; simp)

/-- **C40** The arguments given to the database are the static ones followed by the elements of each slice
in order. -/
theorem C40_arguments {cat : Catalog} {q : Query} {t : TargetInfo} {c : Code} (h : Plain cat q t)
    (hc : generate q t = some c) (hs : c.g.slices ≠ []) (w : World) :
    sentArgs q w c = some (c.args.map (eval w.field) ++ c.g.slices.flatMap w.slice) := by
  have hn := (h.spec.2 c hc).2.1
  have hlen : 0 < c.g.slices.length := List.length_pos_iff.2 hs
  have hf : ¬ (q.filter.isSome = true ∧ q.kind = .update) := by
    rintro ⟨hf, _⟩
    have hw : q.wher = none := h.toBuilt.shape.filterOnly (by cases hx : q.filter <;> simp_all)
    have hsl := (h.spec.2 c hc).2.2
    rw [whereSlices, hw] at hsl
    exact hs hsl
  simp only [sentArgs, buildParams, h.one, hlen, passesParams, sliceParams_eq w c hn, addFilterParams, hf]
  simp [List.flatMap]

/-- The number of elements of the slices before the k-th (counted from 0). -/
def before (w : World) (c : Code) (k : Nat) : Nat := ((sliceLens w c).take k).sum

theorem positions_get (lens : List Nat) : ∀ (pos : Int) (k : Nat), k < lens.length →
    (positions pos lens)[k]? = some (pos + ((lens.take k).sum : Nat)) := by
  induction lens with
  | nil => intro _ k h; simp at h
  | cons l ls ih =>
    intro pos k h
    cases k with
    | zero => simp [positions]
    | succ k =>
      simp only [positions, List.getElem?_cons_succ, List.take_succ_cons, List.sum_cons]
      rw [ih _ k (by simpa using h)]
      congr 1
      push_cast
      omega

theorem getElem_flatten_before (ss : List (List Val)) : ∀ (k j : Nat) (s : List Val), ss[k]? = some s →
    j < s.length → ss.flatten[((ss.map List.length).take k).sum + j]? = s[j]? := by
  induction ss with
  | nil => intro k j s h; simp at h
  | cons a ss ih =>
    intro k j s h hj
    cases k with
    | zero =>
      simp only [List.getElem?_cons_zero, Option.some.injEq] at h
      subst h
      simp only [List.take_zero, List.sum_nil, Nat.zero_add, List.flatten_cons]
      rw [List.getElem?_append_left hj]
    | succ k =>
      simp only [List.getElem?_cons_succ] at h
      have := ih k j s h hj
      simp only [List.map_cons, List.take_succ_cons, List.sum_cons, List.flatten_cons]
      rw [List.getElem?_append_right (by omega)]
      rw [← this]
      congr 1
      omega

/-- **C40** The list for the k-th slice is made of as many placeholders as it has elements, and the j-th of
them is bound to its j-th element. -/
theorem C40_placeholders {cat : Catalog} {q : Query} {t : TargetInfo} {c : Code} (h : Plain cat q t)
    (hc : generate q t = some c) (w : World) (args : List Val) (ha : sentArgs q w c = some args)
    (hmax : args.length ≤ 65535) (k : Nat) (s : GoExpr) (hk : c.g.slices[k]? = some s) :
    slotText w c (.slice (k + 1)) =
      some (placeholderList (w.slice s).length (c.args.length + before w c k)) ∧
    ∀ j, j < (w.slice s).length → args[c.args.length + before w c k + j]? = (w.slice s)[j]? := by
  have hklt : k < c.g.slices.length := (List.getElem?_eq_some_iff.1 hk).1
  have hs : c.g.slices ≠ [] := by intro e; rw [e] at hklt; simp at hklt
  rw [C40_arguments h hc hs w, Option.some.injEq] at ha
  have hn := (h.spec.2 c hc).2.1
  have hl : sliceLens w c = (c.g.slices.map w.slice).map List.length := by
    simp [sliceLens, Function.comp_def]
  have hss : (c.g.slices.map w.slice)[k]? = some (w.slice s) := by
    rw [List.getElem?_map, hk]; rfl
  have hget : (sliceLens w c)[k]? = some (w.slice s).length := by
    rw [hl, List.getElem?_map, hss]; rfl
  constructor
  · simp only [slotText, Nat.add_sub_cancel, hget, Option.bind_some]
    rw [positions_get _ _ _ (by rw [sliceLens, List.length_map]; exact hklt), Option.bind_some]
    have hpos : c.g.num + (((sliceLens w c).take k).sum : Nat) = ((c.args.length + before w c k : Nat) : Int) := by
      rw [hn, before]; push_cast; rfl
    rw [hpos]
    refine C12_in_value_list _ _ ?_
    by_cases h0 : (w.slice s).length = 0
    · exact .inl h0
    · refine .inr ?_
      have hx := getElem_flatten_before (c.g.slices.map w.slice) k ((w.slice s).length - 1) _ hss (by omega)
      rw [← hl, List.getElem?_eq_getElem (show (w.slice s).length - 1 < (w.slice s).length by omega)] at hx
      have hlt := (List.getElem?_eq_some_iff.1 hx).1
      have hlen : args.length = c.args.length + (c.g.slices.map w.slice).flatten.length := by
        rw [← ha, List.flatMap, List.length_append, List.length_map]
      rw [before]
      omega
  · intro j hj
    have hx := getElem_flatten_before (c.g.slices.map w.slice) k j _ hss hj
    rw [← hl] at hx
    rw [← ha, ← hx, before, List.flatMap, List.getElem?_append_right (by simp; omega)]
    congr 1
    simp only [List.length_map]
    omega

/-- **C40** The other parameters keep their arguments. -/
theorem C40_static {cat : Catalog} {q : Query} {t : TargetInfo} {c : Code} (h : Plain cat q t)
    (hc : generate q t = some c) (w : World) (hs : c.g.slices ≠ []) (args : List Val)
    (ha : sentArgs q w c = some args) (n : Nat) (hn : .num (n + 1 : Nat) ∈ c.slots) :
    slotText w c (.num (n + 1 : Nat)) = some (b!"$" ++ Nat.toDigits 10 (n + 1)) ∧
    ∃ e, c.args[n]? = some e ∧ args[n]? = some (eval w.field e) := by
  obtain ⟨_, h2⟩ := C39_bound h hc _ hn
  constructor
  · simp only [slotText]
    rw [if_pos (by omega)]
    rfl
  · rw [C40_arguments h hc hs w, Option.some.injEq] at ha
    have hlt : n < c.args.length := by omega
    refine ⟨c.args[n], List.getElem?_eq_getElem hlt, ?_⟩
    rw [← ha, List.getElem?_append_left (by simpa using hlt), List.getElem?_map,
      List.getElem?_eq_getElem hlt]
    rfl

/-! ### Examples and exceptions -/

/-- `q.Where.Ids` has three elements, other slices one. -/
def world3 : World :=
  { field := fun _ => .int 0
    slice := fun e => if e = path [b!"Where", b!"Ids"] then [.int 7, .int 8, .int 9] else [.data b!"x"] }

/-- Two slices among other conditions: `name = $1 AND id IN ($3,$4,$5) AND age > $2 AND name IN ($6)`. -/
theorem C40_example : ∃ q t c, Plain shopCat q t ∧ generate q t = some c ∧
    c.slots = [.num 1, .slice 1, .num 2, .slice 2] ∧
    sentArgs q world3 c = some [.int 0, .int 0, .int 7, .int 8, .int 9, .data b!"x"] ∧
    slotText world3 c (.slice 1) = some b!"$3,$4,$5" ∧ slotText world3 c (.slice 2) = some b!"$6" := by
  obtain ⟨q, t, c, hb, hc, hp⟩ := code_of (env := env0) (cat := shopCat) (n := b!"SelectUsers")
    (fs := [relFld (.slice userTy),
      whereOf [sqlFld b!"Name" [b!"u.name", b!"@lower"] strTy,
        sqlFld b!"Ids" [b!"u.id isin"] (.slice Analysis.intTy), sqlFld b!"Age" [b!"u.age >"] Analysis.intTy,
        sqlFld b!"Names" [b!"u.name isin"] (.slice strTy)]])
    (P := fun q _ c => decide (isInsertOrUpdateSlice q = false ∧ inUsesFields q = true ∧ q.kind = .select ∧
      c.slots = [.num 1, .slice 1, .num 2, .slice 2] ∧
      sentArgs q world3 c = some [.int 0, .int 0, .int 7, .int 8, .int 9, .data b!"x"] ∧
      slotText world3 c (.slice 1) = some b!"$3,$4,$5" ∧ slotText world3 c (.slice 2) = some b!"$6"))
    (by decide +kernel)
  obtain ⟨h1, h2, h3, h4⟩ := of_decide_eq_true hp
  exact ⟨q, t, c, { toBuilt := hb, one := h1, fields := h2
                    keys := fun h => by simp [isUpdateWithPKeys, h3] at h }, hc, h4⟩

/-- **C40** An empty slice gives an empty list, and so the statement `x IN ()`, which is not SQL. -/
theorem C40_not_valid_empty {cat : Catalog} {q : Query} {t : TargetInfo} {c : Code} (h : Plain cat q t)
    (hc : generate q t = some c) (w : World) (args : List Val) (ha : sentArgs q w c = some args)
    (hmax : args.length ≤ 65535) (k : Nat) (s : GoExpr) (hk : c.g.slices[k]? = some s)
    (hs : w.slice s = []) : slotText w c (.slice (k + 1)) = some [] := by
  rw [(C40_placeholders h hc w args ha hmax k s hk).1, hs]
  rfl

/-- **C40** With a column compared by IN the arguments do not fit into `params`, and the method panics. -/
theorem C40_not_column_in : ∃ q t c, Built shopCat q t ∧ generate q t = some c ∧
    sentArgs q { field := fun _ => .int 0 } c = none := by
  obtain ⟨q, t, c, hb, hc, hp⟩ := code_of (env := env0) (cat := shopCat) (n := b!"SelectUsers")
    (fs := [relFld (.slice userTy),
      whereOf [dirFld b!"Column" [b!"u.id isin u.tags"], sqlFld b!"Age" [b!"u.age >"] Analysis.intTy]])
    (P := fun q _ c => decide (sentArgs q { field := fun _ => .int 0 } c = none))
    (by decide +kernel)
  exact ⟨q, t, c, hb, hc, of_decide_eq_true hp⟩

end Verif.Generator
