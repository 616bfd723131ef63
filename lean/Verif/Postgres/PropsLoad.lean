import Verif.Postgres.Load
import Verif.Pgsql.PropsInts

/-
C104: what the checker knows about the database is what the system catalogs of the database say.
-/
namespace Verif.Postgres
open Verif.Analysis

/-- What the database guarantees of its system catalogs: the keys of pg_type, pg_cast and pg_attribute, at
most one primary key for each relation, numbers of columns that fit in an int2 in a key that is not
empty, and answers of `to_regclass` that are in pg_class. -/
structure Consistent (s : SysTables) : Prop where
  types : s.types.Pairwise fun a b => a.oid ≠ b.oid
  casts : s.casts.Pairwise fun a b => ¬ (a.source = b.source ∧ a.target = b.target)
  attrs : s.attrs.Pairwise fun a b => ¬ (a.relid = b.relid ∧ a.num = b.num)
  primary : ∀ r, (s.indexes.filter fun i => i.primary && i.relid = r).length ≤ 1
  keys : ∀ i ∈ s.indexes, i.key ≠ [] ∧ ∀ n ∈ i.key, Pgsql.InRange 16 n
  names : ∀ n ∈ s.names, (List.lookup n.2 s.kinds).isSome = true

/-! ### Lists -/

theorem find?_unique {α : Type} (p : α → Bool) (l : List α)
    (h : l.Pairwise fun a b => ¬ (p a = true ∧ p b = true)) (x : α) :
    l.find? p = some x ↔ x ∈ l ∧ p x = true := by
  induction l with
  | nil => simp
  | cons y ys ih =>
    rw [List.pairwise_cons] at h
    rw [List.find?_cons]
    cases hy : p y with
    | true =>
      constructor
      · intro e; cases e; exact ⟨by simp, hy⟩
      · rintro ⟨hm, hx⟩
        rcases List.mem_cons.mp hm with e | hm
        · rw [e]
        · exact absurd ⟨hy, hx⟩ (h.1 x hm)
    | false =>
      rw [ih h.2]
      constructor
      · rintro ⟨hm, hx⟩; exact ⟨by simp [hm], hx⟩
      · rintro ⟨hm, hx⟩
        rcases List.mem_cons.mp hm with e | hm
        · rw [e] at hx; rw [hx] at hy; cases hy
        · exact ⟨hm, hx⟩

theorem mem_insertBy {α : Type} (k : α → Int) (x y : α) (l : List α) :
    y ∈ insertBy k x l ↔ y = x ∨ y ∈ l := by
  induction l with
  | nil => simp [insertBy]
  | cons z zs ih =>
    rw [insertBy]
    split
    · simp
    · rw [List.mem_cons, ih, List.mem_cons]
      constructor
      · rintro (h | h | h) <;> simp [h]
      · rintro (h | h | h) <;> simp [h]

theorem mem_orderBy {α : Type} (k : α → Int) (y : α) (l : List α) : y ∈ orderBy k l ↔ y ∈ l := by
  induction l with
  | nil => simp [orderBy]
  | cons x xs ih => rw [orderBy, mem_insertBy, ih, List.mem_cons]

theorem insertBy_sorted {α : Type} (k : α → Int) (x : α) (l : List α)
    (h : l.Pairwise fun a b => k a < k b) (hx : ∀ y ∈ l, k x ≠ k y) :
    (insertBy k x l).Pairwise fun a b => k a < k b := by
  induction l with
  | nil => simp [insertBy]
  | cons y ys ih =>
    rw [List.pairwise_cons] at h
    have hxy := hx y (by simp)
    rw [insertBy]
    split
    · rename_i hle
      have hlt : k x < k y := by omega
      refine List.pairwise_cons.mpr ⟨?_, List.pairwise_cons.mpr h⟩
      intro z hz
      rcases List.mem_cons.mp hz with e | hz
      · rw [e]; exact hlt
      · have := h.1 z hz; omega
    · rename_i hle
      refine List.pairwise_cons.mpr ⟨?_, ih h.2 (fun z hz => hx z (by simp [hz]))⟩
      intro z hz
      rcases (mem_insertBy k x z ys).mp hz with e | hz
      · rw [e]; omega
      · exact h.1 z hz

theorem orderBy_sorted {α : Type} (k : α → Int) (l : List α)
    (h : l.Pairwise fun a b => k a ≠ k b) : (orderBy k l).Pairwise fun a b => k a < k b := by
  induction l with
  | nil => simp [orderBy]
  | cons x xs ih =>
    rw [List.pairwise_cons] at h
    exact insertBy_sorted k x _ (ih h.2) fun y hy => h.1 y ((mem_orderBy k y xs).mp hy)

theorem mem_allOf {α β : Type} (f : α → Option β) (l : List α) (r : List β)
    (h : allOf f l = some r) (y : β) : y ∈ r ↔ ∃ x ∈ l, f x = some y := by
  induction l generalizing r with
  | nil =>
    cases h
    simp
  | cons x xs ih =>
    rw [allOf] at h
    cases hx : f x with
    | none => rw [hx] at h; cases h
    | some z =>
      rw [hx] at h
      cases hs : allOf f xs with
      | none => simp [hs] at h
      | some zs =>
        simp only [hs, Option.map_some, Option.some.injEq] at h
        subst h
        rw [List.mem_cons, ih zs hs]
        constructor
        · rintro (e | ⟨w, hw, e⟩)
          · exact ⟨x, by simp, by rw [hx, e]⟩
          · exact ⟨w, by simp [hw], e⟩
        · rintro ⟨w, hw, e⟩
          rcases List.mem_cons.mp hw with e' | hw
          · rw [e', hx] at e; cases e; exact .inl rfl
          · exact .inr ⟨w, hw, e⟩

theorem allOf_some {α β : Type} (f : α → Option β) (l : List α) (h : ∀ x ∈ l, ∃ y, f x = some y) :
    ∃ r, allOf f l = some r := by
  induction l with
  | nil => exact ⟨[], rfl⟩
  | cons x xs ih =>
    obtain ⟨y, hy⟩ := h x (by simp)
    obtain ⟨r, hr⟩ := ih fun z hz => h z (by simp [hz])
    exact ⟨y :: r, by simp [allOf, hy, hr]⟩

/-! ### Types, operators, casts -/

/-- C104: a type is known exactly if the database has it, it is visible without the name of its schema, and
it is not a pseudo type; and what is known of it is what the database says. -/
theorem C104_types (s : SysTables) (w : Consistent s) (id : Nat) (t : PgType) :
    (catalogOf s).type id = some t ↔
      ∃ r ∈ s.types, r.oid = id ∧ r.visible = true ∧ r.category ≠ 'P' ∧
        t = { oid := r.oid, nameFmt := r.nameFmt, typ := r.typ, category := r.category, elem := r.elem } := by
  have hp : (selectTypes s).reverse.Pairwise fun a b =>
      ¬ (decide (a.oid = id) = true ∧ decide (b.oid = id) = true) := by
    rw [List.pairwise_reverse, selectTypes, List.pairwise_map]
    refine (w.types.filter _).imp ?_
    intro a b h hab
    simp only [decide_eq_true_eq] at hab
    exact h (by rw [hab.1, hab.2])
  rw [Catalog.type]
  show (selectTypes s).reverse.find? _ = some t ↔ _
  rw [find?_unique _ _ hp, List.mem_reverse, selectTypes, List.mem_map]
  simp only [List.mem_filter, Bool.and_eq_true, decide_eq_true_eq]
  constructor
  · rintro ⟨⟨r, ⟨hr, hv, hc⟩, e⟩, hid⟩
    refine ⟨r, hr, ?_, hv, hc, e.symm⟩
    rw [← hid, ← e]
  · rintro ⟨r, hr, hid, hv, hc, e⟩
    exact ⟨⟨r, ⟨hr, hv, hc⟩, e.symm⟩, by rw [e]; exact hid⟩

/-- C104: an operator is known exactly if the database has it. -/
theorem C104_operators (s : SysTables) (k : OpKey) : (catalogOf s).hasOp k = true ↔
    ∃ o ∈ s.ops, o.name = k.name ∧ o.left = k.left ∧ o.right = k.right := by
  rw [Catalog.hasOp]
  show (selectOperators s).contains k = true ↔ _
  rw [List.contains_iff_mem, selectOperators, List.mem_map]
  constructor
  · rintro ⟨o, ho, e⟩
    exact ⟨o, ho, by rw [← e], by rw [← e], by rw [← e]⟩
  · rintro ⟨o, ho, h1, h2, h3⟩
    refine ⟨o, ho, ?_⟩
    rw [h1, h2, h3]

/-- C104: a cast is known with the context that the database has for it, and only if it has one. -/
theorem C104_casts (s : SysTables) (w : Consistent s) (target source : Nat) (context : Char) :
    (catalogOf s).castContext target source = some context ↔
      ({ source := source, target := target, context := context } : Cast) ∈ s.casts := by
  have hp : s.casts.reverse.Pairwise fun a b =>
      ¬ ((decide (a.target = target) && decide (a.source = source)) = true ∧
        (decide (b.target = target) && decide (b.source = source)) = true) := by
    rw [List.pairwise_reverse]
    refine w.casts.imp ?_
    intro a b h hab
    simp only [Bool.and_eq_true, decide_eq_true_eq] at hab
    obtain ⟨⟨h1, h2⟩, h3, h4⟩ := hab
    exact h ⟨by rw [h2, h4], by rw [h1, h3]⟩
  rw [Catalog.castContext]
  show (s.casts.reverse.find? _).map _ = some context ↔ _
  rw [Option.map_eq_some_iff]
  constructor
  · rintro ⟨c, hc, e⟩
    obtain ⟨hm, hk⟩ := (find?_unique _ _ hp c).mp hc
    simp only [Bool.and_eq_true, decide_eq_true_eq] at hk
    rw [← hk.1, ← hk.2, ← e]
    exact List.mem_reverse.mp hm
  · intro hm
    exact ⟨_, (find?_unique _ _ hp _).mpr ⟨List.mem_reverse.mpr hm, by simp⟩, rfl⟩

/-! ### Functions -/

theorem someEnd_all (t : Bytes) : someEnd (sqlLike []) t = true := by
  induction t with
  | nil => rfl
  | cons c cs ih => simp [someEnd, ih]

/-- C104: the names that `LIKE 'pg_%'` is true of: `pg` and at least one more character. -/
theorem C104_like_pg (n : Bytes) : sqlLike b!"pg_%" n = true ↔ ∃ c r, n = 'p' :: 'g' :: c :: r := by
  match n with
  | [] => simp [sqlLike]
  | [a] => simp [sqlLike]
  | [a, b] => simp [sqlLike]
  | a :: b :: c :: r =>
    have e : sqlLike b!"pg_%" (a :: b :: c :: r) =
        (decide ('p' = a) && (decide ('g' = b) && someEnd (sqlLike []) r)) := by
      simp [sqlLike]
    rw [e, someEnd_all]
    simp only [Bool.and_true, Bool.and_eq_true, decide_eq_true_eq]
    constructor
    · rintro ⟨h1, h2⟩; exact ⟨c, r, by rw [h1, h2]⟩
    · rintro ⟨c', r', h⟩
      simp only [List.cons.injEq] at h
      exact ⟨h.1.symm, h.2.1.symm⟩

/-- C104: the names that `LIKE '_pg_%'` is true of: any character, `pg`, and at least one more. -/
theorem C104_like_any_pg (n : Bytes) :
    sqlLike b!"_pg_%" n = true ↔ ∃ a c r, n = a :: 'p' :: 'g' :: c :: r := by
  match n with
  | [] => simp [sqlLike]
  | a :: r =>
    have e : sqlLike b!"_pg_%" (a :: r) = sqlLike b!"pg_%" r := by
      simp [sqlLike]
    rw [e, C104_like_pg]
    simp

/-- The names of functions that are left out. -/
def LeftOut (n : Bytes) : Prop :=
  (∃ c r, n = 'p' :: 'g' :: c :: r) ∨ ∃ a c r, n = a :: 'p' :: 'g' :: c :: r

/-- C104: the functions that are known by a name are those of one argument that the database has by that
name; none if the name is `pg` and more, or any character, `pg` and more. -/
theorem C104_functions (s : SysTables) (name : Bytes) (p : Proc) : p ∈ (catalogOf s).procsOf name ↔
    ∃ r ∈ s.procs, r.name = name ∧ (∃ a, r.args = [a] ∧ p = { name := name, argType := a, retType := r.ret }) ∧
      ¬ LeftOut name := by
  rw [Catalog.procsOf, List.mem_filter]
  show p ∈ selectProcs s ∧ _ ↔ _
  rw [selectProcs, List.mem_map]
  have hn : ∀ n, (!sqlLike b!"pg_%" n && !sqlLike b!"_pg_%" n) = true ↔ ¬ LeftOut n := by
    intro n
    rw [LeftOut, ← C104_like_pg, ← C104_like_any_pg]
    cases sqlLike b!"pg_%" n <;> cases sqlLike b!"_pg_%" n <;> simp
  constructor
  · rintro ⟨⟨r, hr, e⟩, hname⟩
    obtain ⟨hr, hs⟩ := List.mem_filter.mp hr
    rw [procSelected, Bool.and_assoc, Bool.and_eq_true, hn, decide_eq_true_eq] at hs
    obtain ⟨a, ha⟩ := List.length_eq_one_iff.mp hs.1
    have hrn : r.name = name := by
      have := of_decide_eq_true hname
      rw [← e] at this; exact this
    refine ⟨r, hr, hrn, ⟨a, ha, ?_⟩, hrn ▸ hs.2⟩
    rw [← e, ha, hrn]; rfl
  · rintro ⟨r, hr, hrn, ⟨a, ha, e⟩, hl⟩
    refine ⟨⟨r, List.mem_filter.mpr ⟨hr, ?_⟩, ?_⟩, ?_⟩
    · rw [procSelected, Bool.and_assoc, Bool.and_eq_true, hn, hrn]
      exact ⟨by simp [ha], hl⟩
    · rw [e, ha, hrn]; rfl
    · simp [e]

/-! ### The keys of indexes -/

theorem scanWords_map (xs : List Int) (h : ∀ x ∈ xs, Pgsql.InRange 16 x) :
    scanWords (xs.map (Pgsql.fmtInt 10)) = some xs := by
  induction xs with
  | nil => rfl
  | cons x xs ih =>
    rw [List.map_cons, scanWords, Pgsql.parseInt_fmtInt 10 16 x (by omega) (by omega) (h x (by simp))]
    simp [ih fun y hy => h y (by simp [hy])]

/-- C104: the key of an index is read as the numbers of its columns. -/
theorem C104_key (xs : List Int) (hx : xs ≠ []) (h : ∀ x ∈ xs, Pgsql.InRange 16 x) :
    scanKey (PgServer.vectorOut xs) = some xs := by
  have e : PgServer.vectorOut xs = PgServer.joinWith b!" " (xs.map (Pgsql.fmtInt 10)) := by
    rw [PgServer.vectorOut]
    congr 1
    exact List.map_congr_left fun x _ => (Pgsql.fmtInt_eq x).symm
  rw [scanKey, e, ← scanWords_map xs h]
  congr 1
  clear e h
  induction xs with
  | nil => exact absurd rfl hx
  | cons x xs ih =>
    cases xs with
    | nil => simp [PgServer.joinWith, Pgsql.splitSpaces_word _ (Pgsql.fmtInt_space x)]
    | cons y ys =>
      have := ih (by simp)
      simp only [List.map_cons] at this ⊢
      rw [PgServer.joinWith, List.append_assoc, List.singleton_append,
        Pgsql.splitSpaces_append _ _ (Pgsql.fmtInt_space x), this]

end Verif.Postgres
