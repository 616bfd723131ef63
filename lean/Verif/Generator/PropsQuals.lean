import Verif.Generator.Quals
import Verif.Generator.PropsImports

/- C69: the packages that a generated file refers to are those it imports. -/
namespace Verif.Generator
open Verif.Analysis Verif.Postgres

/-- The name of an import in the file; `pkgName` gives the name that a package declares. -/
def fileName (pkgName : Bytes → Bytes) (i : Imp) : Bytes := if i.isLocal then i.name else pkgName i.path

/-- A reference means the package it should. -/
structure Resolves (pkgName : Bytes → Bytes) (F : List Imp) (r : Ref) : Prop where
  found : ∃ i ∈ F, i.path = r.path ∧ fileName pkgName i = r.name
  only : ∀ i ∈ F, fileName pkgName i = r.name → i.path = r.path

instance (pkgName : Bytes → Bytes) (F : List Imp) (r : Ref) : Decidable (Resolves pkgName F r) :=
  if h : (∃ i ∈ F, i.path = r.path ∧ fileName pkgName i = r.name) ∧
      ∀ i ∈ F, fileName pkgName i = r.name → i.path = r.path then .isTrue ⟨h.1, h.2⟩
  else .isFalse fun h' => h ⟨h'.1, h'.2⟩

/-- The names that are asked for are those that the packages declare. -/
def TrueNames (pkgName : Bytes → Bytes) (rs : List Request) : Prop :=
  ∀ r ∈ rs, impName r.1 r.2 = pkgName r.1

theorem runUses_imports : ∀ (us : List Use) (s : List Imp), (runUses s us).1 = addImports s (requestsOf us)
  | [], _ => rfl
  | .asked r :: us, s => by
    simp only [runUses, requestsOf, List.flatMap_cons, Use.request, List.cons_append, List.nil_append, addImports]
    exact runUses_imports us _
  | .fixed r n :: us, s => by
    simp only [runUses, requestsOf, List.flatMap_cons, Use.request, List.cons_append, List.nil_append, addImports]
    exact runUses_imports us _
  | .bare p n :: us, s => by
    simp only [runUses, requestsOf, List.flatMap_cons, Use.request, List.nil_append]
    exact runUses_imports us _
  | .idle r :: us, s => by
    simp only [runUses, requestsOf, List.flatMap_cons, Use.request, List.cons_append, List.nil_append, addImports]
    exact runUses_imports us _

/-- Where a reference comes from. -/
theorem refs_source : ∀ (us : List Use) (s : List Imp), ∀ x ∈ (runUses s us).2,
    (∃ l, (x.path, x.name, l) ∈ (runUses s us).1.map Imp.face) ∨
    .bare x.path x.name ∈ us ∨ ∃ n, .fixed (x.path, n) x.name ∈ us
  | [], _, x, hx => by simp [runUses] at hx
  | .asked r :: us, s, x, hx => by
    simp only [runUses] at hx ⊢
    rcases List.mem_cons.1 hx with rfl | hx
    · left
      obtain ⟨h1, h2⟩ := addImport_mem s r
      refine ⟨(addImport s r.1 r.2).2.isLocal, ?_⟩
      rw [runUses_imports]
      have := addImports_face (requestsOf us) _ _ h2
      rw [Imp.face, h1] at this
      exact this
    · rcases refs_source us _ x hx with h | h | ⟨n, h⟩
      · exact .inl h
      · exact .inr (.inl (List.mem_cons_of_mem _ h))
      · exact .inr (.inr ⟨n, List.mem_cons_of_mem _ h⟩)
  | .fixed r n :: us, s, x, hx => by
    simp only [runUses] at hx ⊢
    rcases List.mem_cons.1 hx with rfl | hx
    · exact .inr (.inr ⟨r.2, List.mem_cons_self ..⟩)
    · rcases refs_source us _ x hx with h | h | ⟨n, h⟩
      · exact .inl h
      · exact .inr (.inl (List.mem_cons_of_mem _ h))
      · exact .inr (.inr ⟨n, List.mem_cons_of_mem _ h⟩)
  | .bare p n :: us, s, x, hx => by
    simp only [runUses] at hx ⊢
    rcases List.mem_cons.1 hx with rfl | hx
    · exact .inr (.inl (List.mem_cons_self ..))
    · rcases refs_source us _ x hx with h | h | ⟨n, h⟩
      · exact .inl h
      · exact .inr (.inl (List.mem_cons_of_mem _ h))
      · exact .inr (.inr ⟨n, List.mem_cons_of_mem _ h⟩)
  | .idle r :: us, s, x, hx => by
    simp only [runUses] at hx ⊢
    rcases refs_source us _ x hx with h | h | ⟨n, h⟩
    · exact .inl h
    · exact .inr (.inl (List.mem_cons_of_mem _ h))
    · exact .inr (.inr ⟨n, List.mem_cons_of_mem _ h⟩)

/-! ### Names that are written as they are -/

/-- A name that does not end in a digit. -/
def Undigited (n : Bytes) : Prop := ∀ c, n.getLast? = some c → c.isDigit = false

theorem undigited_append {n b d : Bytes} (hn : Undigited n) (hd : d.all (·.isDigit) = true) (h : n = b ++ d) :
    d = [] := by
  cases hx : d.getLast? with
  | none => exact List.getLast?_eq_none_iff.1 hx
  | some c =>
    have : n.getLast? = some c := by rw [h, List.getLast?_append, hx]; rfl
    have h1 := hn c this
    have h2 := List.all_eq_true.1 hd c (List.mem_of_getLast? hx)
    rw [h1] at h2; cases h2

theorem bump_mem {n : Bytes} {s : List Imp} {i : Imp} (h : i ∈ bump n s) :
    ∃ j ∈ s, j.path = i.path ∧ j.name = i.name ∧ j.isLocal = i.isLocal := by
  have : i.face ∈ (bump n s).map Imp.face := List.mem_map_of_mem h
  rw [bump_face] at this
  obtain ⟨j, hj, he⟩ := List.mem_map.1 this
  simp only [Imp.face, Prod.mk.injEq] at he
  exact ⟨j, hj, he⟩

/-- The import with the path is the one with the name. -/
def Owns (p n : Bytes) (s : List Imp) : Prop := ∀ i ∈ s, i.name = n ↔ i.path = p

theorem addImport_owns {p n : Bytes} {s : List Imp} (hn : Undigited n) (hs : Owns p n s) (r : Request)
    (h1 : r.1 = p → p ∉ s.map (·.path) → impName r.1 r.2 = n)
    (h2 : r.1 ≠ p → p ∉ s.map (·.path) → impName r.1 r.2 ≠ n) : Owns p n (addImport s r.1 r.2).1 := by
  unfold addImport
  cases h : s.find? (fun i => i.path = r.1) with
  | some i => exact hs
  | none =>
    have hnew : r.1 ∉ s.map (·.path) := find_path.1 h
    simp only []
    cases hk : s.reverse.find? (fun i => i.name = impName r.1 r.2) with
    | none =>
      have hfree : ∀ j ∈ s, j.name ≠ impName r.1 r.2 := by
        intro j hj he
        have := List.find?_eq_none.1 hk j (List.mem_reverse.2 hj)
        simp [he] at this
      intro i hi
      rcases List.mem_append.1 hi with hi | hi
      · exact hs i hi
      · simp only [List.mem_singleton] at hi
        subst hi
        simp only
        by_cases hp : r.1 = p
        · exact ⟨fun _ => hp, fun _ => h1 hp (hp ▸ hnew)⟩
        · constructor
          · intro he
            by_cases hm : p ∈ s.map (·.path)
            · obtain ⟨j, hj, hjp⟩ := List.mem_map.1 hm
              have := (hs j hj).2 hjp
              exact absurd (this.trans he.symm) (hfree j hj)
            · exact absurd he (h2 hp hm)
          · exact fun he => absurd he hp
    | some k =>
      have hk1 : k ∈ s := List.mem_reverse.1 (List.mem_of_find?_eq_some hk)
      have hk2 : k.name = impName r.1 r.2 := by simpa using List.find?_some hk
      intro i hi
      rcases List.mem_append.1 hi with hi | hi
      · obtain ⟨j, hj, e1, e2, _⟩ := bump_mem hi
        rw [← e1, ← e2]; exact hs j hj
      · simp only [List.mem_singleton] at hi
        subst hi
        simp only
        have hne : impName r.1 r.2 ++ itoa (k.num + 1) ≠ n := by
          intro he
          have hd := undigited_append hn (itoa_digits _) he.symm
          have : (itoa (k.num + 1)).length ≠ 0 := by
            intro h0
            exact absurd (List.eq_nil_of_length_eq_zero h0) (itoa_ne_nil _)
          exact this (by rw [hd]; rfl)
        constructor
        · exact fun he => absurd he hne
        · intro hp
          exfalso
          have := h1 hp (hp ▸ hnew)
          rw [← hk2] at this
          have := (hs k hk1).1 this
          exact hnew (List.mem_map.2 ⟨k, hk1, by rw [this, hp]⟩)

theorem addImports_owns {p n : Bytes} (hn : Undigited n) : ∀ (rs : List Request) (s : List Imp), Owns p n s →
    (∀ r ∈ rs, r.1 = p → p ∉ s.map (·.path) → impName r.1 r.2 = n) →
    (∀ r ∈ rs, r.1 ≠ p → p ∉ s.map (·.path) → impName r.1 r.2 ≠ n) → Owns p n (addImports s rs)
  | [], _, hs, _, _ => hs
  | r :: rs, s, hs, h1, h2 => by
    have hsub : p ∈ s.map (·.path) → p ∈ (addImport s r.1 r.2).1.map (·.path) := by
      rw [map_path, map_path (addImport s r.1 r.2).1]
      intro hp
      obtain ⟨f, hf, rfl⟩ := List.mem_map.1 hp
      exact List.mem_map_of_mem (addImport_face s r f hf)
    refine addImports_owns hn rs _ (addImport_owns hn hs r (h1 r (List.mem_cons_self ..)) (h2 r (List.mem_cons_self ..))) ?_ ?_
    · exact fun x hx e h => h1 x (List.mem_cons_of_mem _ hx) e (fun h' => h (hsub h'))
    · exact fun x hx e h => h2 x (List.mem_cons_of_mem _ hx) e (fun h' => h (hsub h'))

/-- **C69** A package has its own name in the file if no other package of that name is asked for. -/
theorem C69_own_name {p n : Bytes} (hn : Undigited n) (rs : List Request)
    (h1 : ∀ r ∈ rs, r.1 = p → impName r.1 r.2 = n) (h2 : ∀ r ∈ rs, r.1 ≠ p → impName r.1 r.2 ≠ n) :
    ∀ i ∈ addImports [] rs, i.name = n ↔ i.path = p :=
  addImports_owns hn rs [] (by intro i hi; cases hi) (fun r hr e _ => h1 r hr e) (fun r hr e _ => h2 r hr e)

/-- **C69** The package that is asked for first has its own name, whatever else is asked for. -/
theorem C69_first_name {p n : Bytes} (hn : Undigited n) (r : Request) (rs : List Request) (hr : r.1 = p)
    (h1 : impName r.1 r.2 = n) : ∀ i ∈ addImports [] (r :: rs), i.name = n ↔ i.path = p := by
  have hs : (addImport [] r.1 r.2).1 = [{ path := r.1, name := impName r.1 r.2 }] := rfl
  rw [addImports]
  refine addImports_owns hn rs _ ?_ ?_ ?_
  · intro i hi
    rw [hs] at hi
    simp only [List.mem_singleton] at hi
    subst hi
    exact ⟨fun _ => hr, fun _ => h1⟩
  · intro _ _ _ h; rw [hs] at h; simp [hr] at h
  · intro _ _ _ h; rw [hs] at h; simp [hr] at h

/-! ### Resolution -/

theorem fileName_eq {pkgName : Bytes → Bytes} {rs : List Request} (h : TrueNames pkgName rs) :
    ∀ i ∈ addImports [] rs, fileName pkgName i = i.name := by
  intro i hi
  unfold fileName
  cases hl : i.isLocal with
  | true => rfl
  | false =>
    obtain ⟨r, hr, hp, hn⟩ := C43_unnamed rs i hi hl
    simp only [Bool.false_eq_true, if_false]
    rw [hn, h r hr, hp]

/-- **C69** If the names asked for are right and none is another with digits appended, every name that is not
written as it is means the package that was asked for. -/
theorem C69_asked_partial {pkgName : Bytes → Bytes} {us : List Use} (h : TrueNames pkgName (requestsOf us))
    (hd : NotNumbered (requestsOf us)) (x : Ref) (hx : x ∈ (runUses [] us).2)
    (h1 : .bare x.path x.name ∉ us) (h2 : ∀ n, .fixed (x.path, n) x.name ∉ us) :
    Resolves pkgName (runUses [] us).1 x := by
  rcases refs_source us [] x hx with ⟨l, hl⟩ | h' | ⟨n, h'⟩
  · rw [runUses_imports] at hl ⊢
    obtain ⟨i, hi, he⟩ := List.mem_map.1 hl
    simp only [Imp.face, Prod.mk.injEq] at he
    refine ⟨⟨i, hi, he.1, by rw [fileName_eq h i hi, he.2.1]⟩, ?_⟩
    intro j hj hn
    rw [fileName_eq h j hj] at hn
    have := name_inj (C43_names_partial hd) hj hi (by rw [hn, he.2.1])
    rw [this, he.1]
  · exact absurd h' h1
  · exact absurd h' (h2 n)

/-- **C69** A name that is written as it is means its package exactly if that package is imported and no other
was asked for under the name before (for a package whose name has no digit at the end). -/
theorem C69_fixed {pkgName : Bytes → Bytes} {rs : List Request} (h : TrueNames pkgName rs) (x : Ref)
    (hu : ∀ i ∈ addImports [] rs, i.name = x.name ↔ i.path = x.path) :
    Resolves pkgName (addImports [] rs) x ↔ x.path ∈ rs.map (·.1) := by
  rw [← (C43_paths rs).2]
  constructor
  · intro hr
    obtain ⟨i, hi, hp, _⟩ := hr.found
    exact List.mem_map.2 ⟨i, hi, hp⟩
  · intro hp
    obtain ⟨i, hi, hp⟩ := List.mem_map.1 hp
    refine ⟨⟨i, hi, hp, ?_⟩, ?_⟩
    · rw [fileName_eq h i hi]; exact (hu i hi).2 hp
    · intro j hj hn
      rw [fileName_eq h j hj] at hn
      exact (hu j hj).1 hn

/-! ### Uses of a file -/

theorem mem_requests {us : List Use} {r : Request} :
    r ∈ requestsOf us ↔ .asked r ∈ us ∨ (∃ n, .fixed r n ∈ us) ∨ .idle r ∈ us := by
  unfold requestsOf
  rw [List.mem_flatMap]
  constructor
  · rintro ⟨u, hu, hr⟩
    cases u <;> simp only [Use.request, List.mem_singleton, List.not_mem_nil] at hr
    · subst hr; exact .inl hu
    · subst hr; exact .inr (.inl ⟨_, hu⟩)
    · subst hr; exact .inr (.inr hu)
  · rintro (h | ⟨n, h⟩ | h)
    · exact ⟨_, h, by simp [Use.request]⟩
    · exact ⟨_, h, by simp [Use.request]⟩
    · exact ⟨_, h, by simp [Use.request]⟩

theorem refs_of : ∀ (us : List Use) (s : List Imp) (r : Request),
    (.asked r ∈ us → ∃ x ∈ (runUses s us).2, x.path = r.1) ∧
    (∀ n, .fixed r n ∈ us → ⟨r.1, n⟩ ∈ (runUses s us).2) ∧
    ∀ p n, .bare p n ∈ us → ⟨p, n⟩ ∈ (runUses s us).2
  | [], _, _ => by simp
  | u :: us, s, r => by
    cases u with
    | asked r' =>
      obtain ⟨h1, h2, h3⟩ := refs_of us (addImport s r'.1 r'.2).1 r
      simp only [runUses, List.mem_cons, Use.asked.injEq, reduceCtorEq, false_or]
      refine ⟨?_, fun n h => .inr (h2 n h), fun p n h => .inr (h3 p n h)⟩
      rintro (rfl | h)
      · exact ⟨_, .inl rfl, rfl⟩
      · obtain ⟨x, hx, hp⟩ := h1 h; exact ⟨x, .inr hx, hp⟩
    | fixed r' n' =>
      obtain ⟨h1, h2, h3⟩ := refs_of us (addImport s r'.1 r'.2).1 r
      simp only [runUses, List.mem_cons, Use.fixed.injEq, reduceCtorEq, false_or]
      refine ⟨fun h => ?_, ?_, fun p n h => .inr (h3 p n h)⟩
      · obtain ⟨x, hx, hp⟩ := h1 h; exact ⟨x, .inr hx, hp⟩
      · rintro n (⟨rfl, rfl⟩ | h)
        · exact .inl rfl
        · exact .inr (h2 n h)
    | bare p' n' =>
      obtain ⟨h1, h2, h3⟩ := refs_of us s r
      simp only [runUses, List.mem_cons, Use.bare.injEq, reduceCtorEq, false_or]
      refine ⟨fun h => ?_, fun n h => .inr (h2 n h), ?_⟩
      · obtain ⟨x, hx, hp⟩ := h1 h; exact ⟨x, .inr hx, hp⟩
      · rintro p n (⟨rfl, rfl⟩ | h)
        · exact .inl rfl
        · exact .inr (h3 p n h)
    | idle r' =>
      obtain ⟨h1, h2, h3⟩ := refs_of us (addImport s r'.1 r'.2).1 r
      simp only [runUses, List.mem_cons, reduceCtorEq, false_or]
      exact ⟨h1, h2, h3⟩

/-- **C69** Every import is referred to, except for those that were asked for only where nothing is written. -/
theorem C69_used_partial (us : List Use) : ∀ i ∈ (runUses [] us).1,
    (∃ x ∈ (runUses [] us).2, x.path = i.path) ∨ ∃ r, .idle r ∈ us ∧ r.1 = i.path := by
  intro i hi
  rw [runUses_imports] at hi
  have hp := ((C43_paths (requestsOf us)).2 i.path).1 (List.mem_map.2 ⟨i, hi, rfl⟩)
  obtain ⟨r, hr, he⟩ := List.mem_map.1 hp
  obtain ⟨h1, h2, _⟩ := refs_of us [] r
  rcases mem_requests.1 hr with h | ⟨n, h⟩ | h
  · obtain ⟨x, hx, hxp⟩ := h1 h
    exact .inl ⟨x, hx, hxp.trans he⟩
  · exact .inl ⟨_, h2 n h, he⟩
  · exact .inr ⟨r, h, he⟩

theorem not_idle_convUses {l : List GoExpr} {r : Request} : .idle r ∉ l.flatMap convUses := by
  intro h
  obtain ⟨x, _, hx⟩ := List.mem_flatMap.1 h
  cases x <;> simp [convUses] at hx

/-- **C69** That happens exactly for a method that scans into a record of another package that is not behind a
pointer, in a slice or passed to an iterator. -/
theorem C69_idle (m : MethodConf) (q : Query) (t : TargetInfo) (c : Code) (r : Request) :
    .idle r ∈ queryUses m q t c ↔
      (t.reads ≠ [] ∨ isSelectCountOrExists q = true) ∧ ¬(isInsertOrUpdate q = true ∧ q.result = none) ∧
      (outputType q).base.isImported = true ∧ (outputType q).isPointer = false ∧
      (outputType q).isSlice = false ∧ (outputType q).isIter = false ∧
      r = ((outputType q).base.pkgPath, (outputType q).base.pkgName) := by
  have hq : .idle r ∈ queryUses m q t c ↔ .idle r ∈ rootUses q t := by
    unfold queryUses
    simp only [List.mem_append, List.mem_singleton, reduceCtorEq, false_or, not_idle_convUses, or_false]
    constructor
    · rintro ((((((h | h) | h) | h) | h) | h))
      all_goals first
        | exact h
        | (split at h <;> simp at h)
        | (obtain ⟨p, _, hp⟩ := List.mem_flatMap.1 h
           unfold nodeUses at hp
           split at hp
           · split at hp <;> simp at hp
           · cases hp)
        | simp at h
        | (unfold batchUses at h; split at h <;> simp at h)
    · intro h; simp [h]
  rw [hq]
  unfold rootUses rootInit hasOutput canSkipRelInit
  dsimp only
  rcases Bool.eq_false_or_eq_true (outputType q).base.isImported with h5 | h5 <;>
    rcases Bool.eq_false_or_eq_true (outputType q).isPointer with h6 | h6 <;>
    rcases Bool.eq_false_or_eq_true (outputType q).isSlice with h7 | h7 <;>
    rcases Bool.eq_false_or_eq_true (outputType q).isIter with h8 | h8 <;>
    cases h1 : t.reads <;> cases h2 : isSelectCountOrExists q <;> cases h3 : isInsertOrUpdate q <;>
    cases h4 : q.result <;> simp [h5, h6, h7, h8]

/-! ### Files -/

theorem fixed_query {m : MethodConf} {q : Query} {t : TargetInfo} {c : Code} {u : Use}
    (hu : u ∈ queryUses m q t c) :
    (∃ r, u = .asked r) ∨ (∃ r, u = .idle r) ∨ u = .fixed (pgsqlPath, b!"pgsql") b!"pgsql" ∨
    u = .fixed (gosqlPath, b!"gosql") b!"gosql" ∨ u = .fixed (b!"context", []) b!"context" ∨
    u = .bare gosqlPath b!"gosql" := by
  have hc : ∀ l : List GoExpr, u ∈ l.flatMap convUses → u = .fixed (pgsqlPath, b!"pgsql") b!"pgsql" := by
    intro l h
    obtain ⟨x, _, hx⟩ := List.mem_flatMap.1 h
    cases x <;> simp [convUses] at hx
    exact hx
  unfold queryUses at hu
  simp only [List.mem_append] at hu
  rcases hu with ((((((((h | h) | h) | h) | h) | h) | h) | h) | h)
  · simp only [List.mem_singleton] at h; exact .inl ⟨_, h⟩
  · split at h
    · simp only [List.mem_singleton] at h; simp [h]
    · cases h
  · simp [hc _ h]
  · unfold rootUses at h
    dsimp only at h
    split at h
    · cases h
    · split at h
      · simp only [List.mem_singleton] at h; exact .inr (.inl ⟨_, h⟩)
      · simp only [List.mem_singleton] at h; exact .inl ⟨_, h⟩
  · obtain ⟨p, _, hp⟩ := List.mem_flatMap.1 h
    unfold nodeUses at hp
    split at hp
    · split at hp
      · simp only [List.mem_singleton] at hp; exact .inl ⟨_, hp⟩
      · cases hp
    · cases hp
  · simp [hc _ h]
  · obtain ⟨_, _, h⟩ := List.mem_map.1 h; simp [← h]
  · unfold batchUses at h
    split at h
    · simp only [List.mem_singleton] at h; simp [h]
    · cases h
  · split at h
    · simp only [List.mem_singleton] at h; simp [h]
    · cases h

/-- The uses of a file. -/
def fileUses (pkg : Bytes) (m : MethodConf) (f : FilterConf) (ts : List Source) : List Use :=
  ts.flatMap (Source.uses pkg m f)

theorem fixed_file {pkg : Bytes} {m : MethodConf} {f : FilterConf} {ts : List Source} {u : Use}
    (hu : u ∈ fileUses pkg m f ts) :
    (∃ r, u = .asked r) ∨ (∃ r, u = .idle r) ∨ u = .fixed (pgsqlPath, b!"pgsql") b!"pgsql" ∨
    u = .fixed (gosqlPath, b!"gosql") b!"gosql" ∨ u = .fixed (b!"context", []) b!"context" ∨
    u = .bare gosqlPath b!"gosql" := by
  obtain ⟨s, _, hs⟩ := List.mem_flatMap.1 hu
  cases s with
  | query q t c => exact fixed_query hs
  | filter fs t =>
    obtain ⟨r, _, hr⟩ := List.mem_map.1 hs
    exact .inl ⟨r, hr.symm⟩

/-- The packages that are written by fixed names, and those names. -/
def fixedNames : List (Bytes × Bytes) :=
  [(pgsqlPath, b!"pgsql"), (gosqlPath, b!"gosql"), (b!"context", b!"context")]

theorem fixedNames_undigited : ∀ x ∈ fixedNames, Undigited x.2 := by
  intro x hx c hc
  simp only [fixedNames, List.mem_cons, List.not_mem_nil, or_false] at hx
  rcases hx with rfl | rfl | rfl <;> simp at hc <;> subst hc <;> decide

/-- What is asked of the names of the packages of a file. -/
structure WellNamed (pkgName : Bytes → Bytes) (rs : List Request) : Prop where
  true_ : TrueNames pkgName rs
  numbered : NotNumbered rs
  /-- the three packages have their names, and no other package has one of these -/
  fixed : ∀ x ∈ fixedNames, pkgName x.1 = x.2 ∧ ∀ r ∈ rs, r.1 ≠ x.1 → pkgName r.1 ≠ x.2

theorem fixed_resolves {pkgName : Bytes → Bytes} {rs : List Request} (h : WellNamed pkgName rs)
    {x : Bytes × Bytes} (hx : x ∈ fixedNames) (hr : x.1 ∈ rs.map (·.1)) :
    Resolves pkgName (addImports [] rs) ⟨x.1, x.2⟩ := by
  obtain ⟨h1, h2⟩ := h.fixed x hx
  refine (C69_fixed h.true_ ⟨x.1, x.2⟩ ?_).2 hr
  refine C69_own_name (fixedNames_undigited x hx) rs ?_ ?_
  · intro r hr he; rw [h.true_ r hr, he, h1]
  · intro r hr he; rw [h.true_ r hr]; exact h2 r hr he

/-- **C69** In a file with good names every reference means its package, if the file imports package gosql or
has neither lists of IN predicates nor info handlers. -/
theorem C69_file_partial {pkgName : Bytes → Bytes} {pkg : Bytes} {m : MethodConf} {f : FilterConf}
    {ts : List Source} (h : WellNamed pkgName (requestsOf (fileUses pkg m f ts)))
    (hg : .bare gosqlPath b!"gosql" ∈ fileUses pkg m f ts →
      gosqlPath ∈ (requestsOf (fileUses pkg m f ts)).map (·.1)) :
    ∀ x ∈ (writeFile pkg m f ts).2, Resolves pkgName (writeFile pkg m f ts).1 x := by
  intro x hx
  have hreq : ∀ r n, .fixed r n ∈ fileUses pkg m f ts →
      r.1 ∈ (requestsOf (fileUses pkg m f ts)).map (·.1) := fun r n hr =>
    List.mem_map.2 ⟨r, mem_requests.2 (.inr (.inl ⟨n, hr⟩)), rfl⟩
  by_cases hb : .bare x.path x.name ∈ fileUses pkg m f ts
  · have hx' : x = ⟨gosqlPath, b!"gosql"⟩ := by
      rcases fixed_file hb with ⟨_, e⟩ | ⟨_, e⟩ | e | e | e | e <;> cases x <;> simp at e
      simp [e]
    subst hx'
    rw [writeFile, runUses_imports]
    exact fixed_resolves h (x := (gosqlPath, b!"gosql")) (by simp [fixedNames]) (hg hb)
  · by_cases hf : ∃ n, .fixed (x.path, n) x.name ∈ fileUses pkg m f ts
    · obtain ⟨n, hf⟩ := hf
      have hx' : (x.path, x.name) ∈ fixedNames := by
        rcases fixed_file hf with ⟨_, e⟩ | ⟨_, e⟩ | e | e | e | e <;> simp at e <;>
          simp [fixedNames, e]
      rw [writeFile, runUses_imports]
      exact fixed_resolves h hx' (hreq (x.path, n) _ hf)
    · exact C69_asked_partial h.true_ h.numbered x hx hb (fun n hn => hf ⟨n, hn⟩)

/-- **C69** With the default type of the argument a file with a query imports package gosql. -/
theorem C69_default {pkg : Bytes} {m : MethodConf} {f : FilterConf} {ts : List Source}
    (hm : m.argPath = gosqlPath) {q : Query} {t : TargetInfo} {c : Code} (hq : .query q t c ∈ ts) :
    gosqlPath ∈ (requestsOf (fileUses pkg m f ts)).map (·.1) := by
  refine List.mem_map.2 ⟨(m.argPath, m.argName), mem_requests.2 (.inl ?_), hm⟩
  exact List.mem_flatMap.2 ⟨_, hq, by simp [Source.uses, queryUses]⟩

/-- **C69** So every reference means its package. -/
theorem C69_file_default_partial {pkgName : Bytes → Bytes} {pkg : Bytes} {m : MethodConf} {f : FilterConf}
    {ts : List Source} (h : WellNamed pkgName (requestsOf (fileUses pkg m f ts)))
    (hm : m.argPath = gosqlPath) :
    ∀ x ∈ (writeFile pkg m f ts).2, Resolves pkgName (writeFile pkg m f ts).1 x := by
  refine C69_file_partial h fun hb => ?_
  obtain ⟨s, hs, hu⟩ := List.mem_flatMap.1 hb
  cases s with
  | query q t c => exact C69_default hm hs
  | filter fs t =>
    obtain ⟨r, _, hr⟩ := List.mem_map.1 hu
    cases hr

theorem importTypes_imports : ∀ (rs : List Request) (s : List Imp) (t : TypeInfo),
    (importTypes s t rs).1 = addImports s rs
  | [], _, _ => rfl
  | r :: rs, s, t => by rw [importTypes, addImports]; exact importTypes_imports rs _ _

theorem colMethods_imports (conf : FilterConf) : ∀ (fs : List FieldFilter) (s : List Imp),
    (colMethods conf s fs).1 = addImports s (colRequests fs)
  | [], _ => rfl
  | f :: fs, s => by
    rw [colMethods, colRequests, List.flatMap_cons]
    split
    · exact colMethods_imports conf fs s
    · simp only
      rw [colMethods_imports conf fs, importTypes_imports, addImports_append]
      rfl

/-- The imports of a filter's code are those asked for. -/
theorem filter_imports (pkg : Bytes) (conf : FilterConf) (s : List Imp) (fs : FilterStruct) (t : TargetInfo) :
    (filterCode pkg conf s fs t).1 = addImports s (requestsOf (filterUses pkg conf fs t)) := by
  have : ∀ l : List Request, requestsOf (l.map .asked) = l := by
    intro l
    induction l with
    | nil => rfl
    | cons r l ih => simp only [requestsOf, List.map_cons, List.flatMap_cons, Use.request] at ih ⊢; rw [ih]; rfl
  rw [filterUses, this, addImports_append, filterCode]
  exact colMethods_imports conf t.filters _

end Verif.Generator
