import Verif.Generator.TreeDb
import Verif.Generator.PropsTree3
import Verif.Generator.PropsDb2

/- Property C95: what the statement that is sent does to the tables. Values, conditions and joins. -/
namespace Verif.Generator.Gram
open Verif.Analysis Verif.Postgres Verif.Generator.Lex Print

/-! ### Names -/

theorem nameOf_rel {r : RelIdent} (hq : lower r.qualifier = r.qualifier) (ha : lower r.alias = r.alias) :
    nameOf (relTree r) = r := by
  obtain ⟨name, alias, qualifier⟩ := r
  simp only at hq ha
  cases qualifier with
  | nil =>
    cases alias with
    | nil => rfl
    | cons a as => simp [nameOf, relTree, ident, ha]
  | cons b bs =>
    cases alias with
    | nil => simp [nameOf, relTree, ident, hq]
    | cons a as => simp [nameOf, relTree, ident, ha, hq]

theorem colNamed_path {c : ColIdent} (hq : lower c.qualifier = c.qualifier) : colNamed (colPath c) = c := by
  obtain ⟨qualifier, name⟩ := c
  simp only at hq
  cases qualifier with
  | nil => rfl
  | cons b bs => simp [colNamed, colPath, ident, hq]

theorem kindOf_word (j : Option JoinType) : kindOf (joinWord j) = j := by
  rcases j with _ | j
  · decide
  · cases j <;> decide

/-- No literal is read as a parameter, and the qualifier of a column is in lower case. -/
def Part.Plain : Part → Prop
  | .lit s => ∀ n, lex s ≠ [.param n]
  | .col c => lower c.qualifier = c.qualifier
  | .cast _ => True

section
variable {V : Type} [DecidableEq V] {S : TServer V} {ps : List (Option V)} {field : Generator.Fields V} {f : Slot → Bytes}
  {g : Slot → GoExpr}

theorem about_row (j : Joined V) : About (S.row j) ps (S.server.cond field j) where
  lit s v hn h := by
    show S.server.lit s = v
    simp only [TServer.server]
    have key : ∀ e : Ex, e = atomEx (lex s) → treeVal (S.row j) ps e = some v →
        (match e with
         | .const t => S.const t
         | .call f [] => S.fn f
         | _ => none) = v := by
      intro e he hv
      generalize lex s = ts at he hn
      unfold atomEx at he
      unfold atom at he
      split at he
      · next t =>
        split at he
        · subst he
          cases t <;> simp_all [treeVal, constVal, TServer.row]
        · subst he; cases hv
      · next w =>
        split at he
        · subst he
          simpa [treeVal, TServer.row] using hv
        · subst he; cases hv
      · subst he; cases hv
    exact key _ rfl h
  call _ := rfl
  op o := by
    show S.op (lex o.text) = S.op (binToks o)
    congr 1
    cases o with
    | like n => cases n <;> decide
    | ilike n => cases n <;> decide
    | similar n => cases n <;> decide
    | distinct n => cases n <;> decide
    | _ => decide
  isNull := rfl
  truth := rfl
  elems := rfl

theorem suits_row {l : List Part} (h : ∀ p ∈ l, p.Plain) (hc : ∀ t, Part.cast t ∈ l → ∀ v, S.cast (lex t) v = v)
    (j : Joined V) : Suits (S.row j) (S.server.cond field j) l := by
  intro p hp
  have := h p hp
  cases p with
  | lit s => exact this
  | col c =>
    show S.server.col j c = S.server.col j (colNamed (colPath c))
    rw [colNamed_path this]
  | cast t =>
    intro x
    show x.map (S.cast (lex t)) = x
    cases x with
    | none => rfl
    | some v => rw [Option.map_some, hc t hp v]

/-! ### Values -/

/-- Not a parameter. -/
def notParam {α : Type} : VExpr α → Prop
  | .param _ => False
  | _ => True

/-- The values that are written and read: parameters, columns, literals, casts of anything but a parameter, NULLIF and
COALESCE. -/
def Basic {α : Type} : VExpr α → Prop
  | .param _ | .col _ | .lit _ => True
  | .cast x _ => notParam x ∧ Basic x
  | .nullif x y | .coalesce x y => Basic x ∧ Basic y
  | _ => False

theorem not_param {x : VExpr Slot} (h1 : notParam x) (h2 : Basic x) (hp : ∀ p ∈ valParts x, p.Plain) :
    isParam (valTree f x) = false := by
  cases x with
  | param => cases h1
  | lit s =>
    have h3 : ∀ n, lex s ≠ [.param n] := hp (.lit s) (by simp [valParts])
    show isParam (atomEx (lex s)) = false
    generalize lex s = ts at h3
    unfold atomEx atom
    split
    · next t =>
      split
      · cases t <;> simp_all [isParam]
      · rfl
    · split <;> rfl
    · rfl
  | _ => first | rfl | cases h2

theorem nullif_eq (u v : Option V) : (if decide (u = v) = true then none else u) = if u = v then none else u := by
  by_cases h : u = v <;> simp [h]

omit [DecidableEq V] in
theorem coalesce_eq (u v : Option V) : (if u.isNone = true then v else u) =
    match u with
    | some v => some v
    | none => v := by
  cases u <;> rfl

/-- The value of a tree is that of the expression. -/
theorem value_of (j : Joined V) : ∀ (x : VExpr Slot), Basic x → ValGram kinds x →
    (∀ a ∈ x.slots, Bound (S.row j) ps (S.server.cond field j) f g a) → (∀ p ∈ valParts x, p.Plain) →
    treeVal (S.row j) ps (valTree f x) = some (S.server.value field j (x.map g))
  | .param a, _, hg, hb, _ => by
    obtain ⟨n, rfl⟩ := atom_num hg
    exact (hb (.num n) (by simp [VExpr.slots])).2
  | .col c, _, _, _, hp => by
    show some (S.server.col j (colNamed (colPath c))) = _
    rw [colNamed_path (hp (.col c) (by simp [valParts]))]
    rfl
  | .lit s, _, hg, _, hp => by
    have h1 : ∀ n, lex s ≠ [.param n] := hp (.lit s) (by simp [valParts])
    obtain ⟨v, hv⟩ := atom_val (D := S.row j) (ps := ps) hg h1
    have h2 := (about_row (S := S) (ps := ps) (field := field) j).lit s v h1 hv
    rw [valTree, hv, ← h2]
    rfl
  | .cast x t, hx, hg, hb, hp => by
    have h1 := value_of j x hx.2 hg.1 hb fun p hm => hp p (by rw [valParts]; exact List.mem_append_right _ hm)
    have h2 := not_param (f := f) hx.1 hx.2 fun p hm => hp p (by rw [valParts]; exact List.mem_append_right _ hm)
    rw [valTree, treeVal, h1, Option.map_some, castAs, h2]
    rfl
  | .nullif x y, hx, hg, hb, hp => by
    rw [VExpr.slots] at hb
    rw [valParts] at hp
    have h1 := value_of j x hx.1 hg.1 (fun a ha => hb a (by simp [ha])) (fun a ha => hp a (by simp [ha]))
    have h2 := value_of j y hx.2 hg.2 (fun a ha => hb a (by simp [ha])) (fun a ha => hp a (by simp [ha]))
    rw [valTree, treeVal, h1, Option.bind_some, h2, Option.bind_some, call2]
    simp only [if_true, Server.value, VExpr.map, SqlWorld.val, TServer.row]
    exact congrArg some (nullif_eq _ _)
  | .coalesce x y, hx, hg, hb, hp => by
    rw [VExpr.slots] at hb
    rw [valParts] at hp
    have h1 := value_of j x hx.1 hg.1 (fun a ha => hb a (by simp [ha])) (fun a ha => hp a (by simp [ha]))
    have h2 := value_of j y hx.2 hg.2 (fun a ha => hb a (by simp [ha])) (fun a ha => hp a (by simp [ha]))
    rw [valTree, treeVal, h1, Option.bind_some, h2, Option.bind_some, call2]
    rw [if_neg (by decide), if_pos rfl]
    simp only [Server.value, VExpr.map, SqlWorld.val, TServer.row]
    exact congrArg some (coalesce_eq _ _)
  | .default, hx, _, _, _ => by cases hx
  | .xcol _, hx, _, _, _ => by cases hx
  | .call _ _, hx, _, _, _ => by cases hx
  | .quantified _ _, hx, _, _, _ => by cases hx
  | .absent, hx, _, _, _ => by cases hx

theorem output_of (j : Joined V) {l : List (VExpr Slot)} (hb : ∀ x ∈ l, Basic x) (hg : ValsGram kinds l)
    (hs : ∀ a ∈ l.flatMap VExpr.slots, Bound (S.row j) ps (S.server.cond field j) f g a)
    (hp : ∀ p ∈ l.flatMap valParts, p.Plain) :
    S.output ps j (l.map (valTree f)) = S.server.output field j (l.map (VExpr.map g)) := by
  unfold TServer.output Server.output
  rw [List.map_map, List.map_map]
  refine List.map_congr_left fun x hx => ?_
  show (treeVal (S.row j) ps (valTree f x)).getD none = _
  rw [value_of j x (hb x hx) (hg x hx) (fun a ha => hs a (List.mem_flatMap.2 ⟨x, hx, ha⟩))
    (fun p hm => hp p (List.mem_flatMap.2 ⟨x, hx, hm⟩))]
  rfl

/-- What can be written: DEFAULT or a value, that is not just a literal. -/
def Cell {α : Type} : VExpr α → Prop
  | .default => True
  | .lit _ => False
  | x => Basic x

theorem cell_of (j : Joined V) {x : VExpr Slot} (hx : Cell x) (hg : ValGram kinds x)
    (hb : ∀ a ∈ x.slots, Bound (S.row j) ps (S.server.cond field j) f g a) (hp : ∀ p ∈ valParts x, p.Plain) :
    S.cell ps j (valTree f x) = S.server.cell field j (x.map g) := by
  have key : Basic x → valTree f x ≠ .const (.word b!"default") → (∀ y, VExpr.map g x ≠ y ∨ y ≠ .default) →
      S.cell ps j (valTree f x) = S.server.cell field j (x.map g) := by
    intro h1 h2 h3
    have h4 : S.server.cell field j (x.map g) = some (S.server.value field j (x.map g)) := by
      cases hm : x.map g with
      | default =>
        rcases h3 _ with h | h
        · exact absurd hm h
        · exact absurd rfl h
      | _ => rfl
    rw [TServer.cell, if_neg h2, h4, TServer.value, value_of j x h1 hg hb hp]
    rfl
  have key2 : ∀ {a : VExpr GoExpr}, a ≠ .default → ∀ y, a ≠ y ∨ y ≠ .default := by
    intro a ha y
    by_cases hy : y = .default
    · subst hy; exact .inl ha
    · exact .inr hy
  cases x with
  | default => rfl
  | lit s => cases hx
  | param a =>
    obtain ⟨n, rfl⟩ := atom_num hg
    refine key hx (fun h => ?_) (key2 (by simp [VExpr.map]))
    have := (hb (.num n) (by simp [VExpr.slots])).1
    rw [valTree] at h
    rw [h] at this
    cases this
  | _ => first | (cases hx; done) | exact key hx (by simp [valTree]) (key2 (by simp [VExpr.map]))

theorem cells_of (j : Joined V) {l : List (VExpr Slot)} (hc : ∀ x ∈ l, Cell x) (hg : ValsGram kinds l)
    (hs : ∀ a ∈ l.flatMap VExpr.slots, Bound (S.row j) ps (S.server.cond field j) f g a)
    (hp : ∀ p ∈ l.flatMap valParts, p.Plain) :
    (l.map (valTree f)).map (S.cell ps j) = (l.map (VExpr.map g)).map (S.server.cell field j) := by
  rw [List.map_map, List.map_map]
  refine List.map_congr_left fun x hx => ?_
  exact cell_of j (hc x hx) (hg x hx) (fun a ha => hs a (List.mem_flatMap.2 ⟨x, hx, ha⟩))
    (fun p hm => hp p (List.mem_flatMap.2 ⟨x, hx, hm⟩))

/-! ### Conditions -/

/-- The conditions have a truth value for every row. -/
def Total (S : TServer V) (field : Generator.Fields V) (l : BList GoExpr) : Prop :=
  ∀ j, ∃ b, evalList (S.server.cond field j) l = some b

theorem holds_row {l : BList Slot} (hg : CondsGram kinds l)
    (hs : ∀ j, ∀ a ∈ l.slots, Bound (S.row j) ps (S.server.cond field j) f g a)
    (hp : ∀ p ∈ condsParts l, p.Plain) (hc : ∀ t, .cast t ∈ condsParts l → ∀ v, S.cast (lex t) v = v)
    (ht : Total S field (l.map g)) (j : Joined V) :
    S.holds ps (some (condsTree f l)) j = S.server.holds field (some (l.map g)) j := by
  obtain ⟨b, hb⟩ := ht j
  have h1 := listHolds_of (about_row j) l hg (hs j) (suits_row hp hc j) b hb
  simp only [TServer.holds, Server.holds, h1, hb]

theorem where_row {w : Option (BList Slot)} (hg : WhereGram kinds w)
    (hs : ∀ j, ∀ a ∈ whereSlots w, Bound (S.row j) ps (S.server.cond field j) f g a)
    (hp : ∀ l, w = some l → ∀ p ∈ condsParts l, p.Plain)
    (hc : ∀ l, w = some l → ∀ t, .cast t ∈ condsParts l → ∀ v, S.cast (lex t) v = v)
    (ht : ∀ l, w = some l → Total S field (l.map g)) :
    S.holds ps (w.map (condsTree f)) = S.server.holds field (w.map (BList.map g)) := by
  funext j
  cases w with
  | none => rfl
  | some l => exact holds_row (hg l rfl) (fun j a ha => hs j a ha) (hp l rfl) (hc l rfl) (ht l rfl) j

theorem join_row {x : TableJoin Slot} (hg : JoinGram kinds x)
    (hs : ∀ j, ∀ a ∈ x.cond.slots, Bound (S.row j) ps (S.server.cond field j) f g a)
    (hr : lower x.rel.qualifier = x.rel.qualifier ∧ lower x.rel.alias = x.rel.alias)
    (hp : ∀ p ∈ condsParts x.cond, p.Plain) (hc : ∀ t, .cast t ∈ condsParts x.cond → ∀ v, S.cast (lex t) v = v)
    (ht : isNil x.cond = false → Total S field (x.cond.map g)) :
    S.joinOf ps (joinTree f x) = S.server.joinOf field (x.map g) := by
  obtain ⟨type, rel, cond⟩ := x
  simp only [TServer.joinOf, Server.joinOf, joinTree, TableJoin.map, kindOf_word, nameOf_rel hr.1 hr.2, JoinOf.mk.injEq,
    true_and]
  funext j
  cases cond with
  | nil => rfl
  | cons k y rest =>
    have hg2 : CondsGram kinds (.cons k y rest) := by
      have := hg.2
      split at this
      · cases this
      · exact this
    have h1 := holds_row hg2 hs hp hc (ht rfl) j
    simp only [isNil, Bool.false_eq_true, if_false]
    rw [h1]
    rfl

end

end Verif.Generator.Gram
