import Verif.Generator.Imports

/- C43: the imports of a generated file. -/
namespace Verif.Generator
open Verif.Analysis Verif.Postgres

/-- What is visible of an import: it does not change once the import was added. -/
def Imp.face (i : Imp) : Bytes × Bytes × Bool := (i.path, i.name, i.isLocal)

theorem bump_face (n : Bytes) (s : List Imp) : (bump n s).map Imp.face = s.map Imp.face := by
  induction s with
  | nil => rfl
  | cons i is ih =>
    rw [bump]
    split
    · rfl
    · rw [List.map_cons, List.map_cons, ih]

theorem map_path (s : List Imp) : s.map (·.path) = (s.map Imp.face).map (·.1) := by
  rw [List.map_map]; rfl

theorem map_name (s : List Imp) : s.map (·.name) = (s.map Imp.face).map (·.2.1) := by
  rw [List.map_map]; rfl

theorem find_path {s : List Imp} {path : Bytes} :
    s.find? (fun i => i.path = path) = none ↔ path ∉ s.map (·.path) := by
  simp only [List.find?_eq_none, List.mem_map, decide_eq_true_eq, not_exists, not_and]

/-- The two cases of `addImport`. -/
theorem addImport_cases (s : List Imp) (path name : Bytes) :
    (∃ i ∈ s, i.path = path ∧ addImport s path name = (s, i)) ∨
    (path ∉ s.map (·.path) ∧ ∃ i, i.path = path ∧ (i.isLocal = false → i.name = impName path name) ∧
      (addImport s path name).2 = i ∧ (addImport s path name).1.map Imp.face = s.map Imp.face ++ [i.face]) := by
  unfold addImport
  cases h : s.find? (fun i => i.path = path) with
  | some i =>
    left
    exact ⟨i, List.mem_of_find?_eq_some h, by simpa using List.find?_some h, rfl⟩
  | none =>
    right
    refine ⟨find_path.1 h, ?_⟩
    simp only []
    cases hk : s.reverse.find? (fun i => i.name = impName path name) with
    | none =>
      exact ⟨{ path := path, name := impName path name }, rfl, fun _ => rfl, rfl, by
        simp only [List.map_append, List.map_cons, List.map_nil]⟩
    | some k =>
      exact ⟨{ path := path, name := impName path name ++ itoa (k.num + 1), isLocal := true }, rfl,
        (fun h => by cases h), rfl, by
          simp only [List.map_append, List.map_cons, List.map_nil, bump_face]⟩

/-- Nothing that was added is lost. -/
theorem addImport_face (s : List Imp) (r : Request) :
    ∀ f ∈ s.map Imp.face, f ∈ (addImport s r.1 r.2).1.map Imp.face := by
  intro f hf
  rcases addImport_cases s r.1 r.2 with ⟨i, hi, _, h⟩ | ⟨_, i, _, _, _, h⟩
  · rw [h]; exact hf
  · rw [h]; exact List.mem_append_left _ hf

theorem addImports_face (rs : List Request) (s : List Imp) :
    ∀ f ∈ s.map Imp.face, f ∈ (addImports s rs).map Imp.face := by
  induction rs generalizing s with
  | nil => exact fun f h => h
  | cons r rs ih => exact fun f h => ih _ f (addImport_face s r f h)

theorem addImport_mem (s : List Imp) (r : Request) :
    (addImport s r.1 r.2).2.path = r.1 ∧
    (addImport s r.1 r.2).2.face ∈ (addImport s r.1 r.2).1.map Imp.face := by
  rcases addImport_cases s r.1 r.2 with ⟨i, hi, hp, h⟩ | ⟨_, i, hp, _, h2, h⟩
  · rw [h]; exact ⟨hp, List.mem_map_of_mem hi⟩
  · rw [h2, h]; exact ⟨hp, by simp⟩

theorem addImports_paths (rs : List Request) : ∀ (s : List Imp), (s.map (·.path)).Nodup →
    ((addImports s rs).map (·.path)).Nodup ∧
    ∀ p, p ∈ (addImports s rs).map (·.path) ↔ p ∈ s.map (·.path) ∨ p ∈ rs.map (·.1) := by
  induction rs with
  | nil => intro s h; exact ⟨h, fun p => by simp [addImports]⟩
  | cons r rs ih =>
    intro s h
    rw [addImports]
    have key : (((addImport s r.1 r.2).1).map (·.path)).Nodup ∧
        ∀ p, p ∈ ((addImport s r.1 r.2).1).map (·.path) ↔ p ∈ s.map (·.path) ∨ p = r.1 := by
      rcases addImport_cases s r.1 r.2 with ⟨i, hi, hp, he⟩ | ⟨hn, i, hp, _, _, he⟩
      · rw [he]
        refine ⟨h, fun p => ⟨.inl, ?_⟩⟩
        rintro (h | rfl)
        · exact h
        · rw [← hp]; exact List.mem_map_of_mem (f := (·.path)) hi
      · rw [map_path, he, List.map_append, ← map_path]
        have : [i.face].map (·.1) = [r.1] := by rw [← hp]; rfl
        rw [this]
        constructor
        · rw [List.nodup_append]
          refine ⟨h, by simp, ?_⟩
          rintro a ha b hb rfl
          rw [List.mem_singleton] at hb
          exact hn (hb ▸ ha)
        · intro p; rw [List.mem_append, List.mem_singleton]
    obtain ⟨h1, h2⟩ := ih _ key.1
    refine ⟨h1, fun p => ?_⟩
    rw [h2, key.2, List.map_cons, List.mem_cons]
    exact or_assoc

/-- **C43** Every package that was requested is imported, once, and nothing else is. -/
theorem C43_paths (rs : List Request) :
    ((addImports [] rs).map (·.path)).Nodup ∧
    ∀ p, p ∈ (addImports [] rs).map (·.path) ↔ p ∈ rs.map (·.1) := by
  obtain ⟨h1, h2⟩ := addImports_paths rs [] (by simp)
  exact ⟨h1, fun p => by simpa using h2 p⟩

theorem addImports_append (a b : List Request) : ∀ s, addImports s (a ++ b) = addImports (addImports s a) b := by
  induction a with
  | nil => intro s; rfl
  | cons r a ih => intro s; exact ih _

/-- **C43** The name that a request is answered with is that of the requested package in the file. -/
theorem C43_answer (a b : List Request) (r : Request) :
    let i := (addImport (addImports [] a) r.1 r.2).2
    i.path = r.1 ∧ ∃ j ∈ addImports [] (a ++ r :: b), j.path = r.1 ∧ j.name = i.name ∧
      j.isLocal = i.isLocal := by
  intro i
  obtain ⟨h1, h2⟩ := addImport_mem (addImports [] a) r
  refine ⟨h1, ?_⟩
  have h3 := addImports_face b _ _ h2
  rw [addImports_append, addImports]
  obtain ⟨j, hj, he⟩ := List.mem_map.1 h3
  simp only [Imp.face, Prod.mk.injEq] at he
  exact ⟨j, hj, he.1.trans h1, he.2.1, he.2.2⟩

/-- **C43** Without an explicit name in the declaration a package has the name it was requested with. -/
theorem C43_unnamed (rs : List Request) : ∀ i ∈ addImports [] rs, i.isLocal = false →
    ∃ r ∈ rs, r.1 = i.path ∧ i.name = impName r.1 r.2 := by
  have main : ∀ (rs : List Request) (s : List Imp) (P : Bytes → Bytes → Prop),
      (∀ f ∈ s.map Imp.face, f.2.2 = false → P f.1 f.2.1) → (∀ r ∈ rs, P r.1 (impName r.1 r.2)) →
      ∀ f ∈ (addImports s rs).map Imp.face, f.2.2 = false → P f.1 f.2.1 := by
    intro rs
    induction rs with
    | nil => intro s P hs _; exact hs
    | cons r rs ih =>
      intro s P hs hr
      rw [addImports]
      refine ih _ P ?_ fun x hx => hr x (List.mem_cons_of_mem _ hx)
      rcases addImport_cases s r.1 r.2 with ⟨i, _, _, he⟩ | ⟨_, i, hp, hl, _, he⟩
      · rw [he]; exact hs
      · rw [he]
        intro f hf hfl
        rcases List.mem_append.1 hf with hf | hf
        · exact hs f hf hfl
        · rw [List.mem_singleton] at hf
          subst hf
          have := hr r (List.mem_cons_self ..)
          show P i.path i.name
          rw [hl hfl, hp]
          exact this
  intro i hi hl
  exact main rs [] (fun p n => ∃ r ∈ rs, r.1 = p ∧ n = impName r.1 r.2) (by simp)
    (fun r hr => ⟨r, hr, rfl, rfl⟩) i.face (List.mem_map_of_mem hi) hl

/-! ### Distinct names -/

/-- No name that is requested is another one followed by digits. -/
def NotNumbered (rs : List Request) : Prop :=
  ∀ r ∈ rs, ∀ r' ∈ rs, ∀ d : Bytes, d ≠ [] → d.all (·.isDigit) = true →
    impName r'.1 r'.2 ≠ impName r.1 r.2 ++ d

theorem bump_eq {n : Bytes} : ∀ {s : List Imp}, (s.map (·.name)).Nodup →
    bump n s = s.map fun i => if i.name = n then { i with num := i.num + 1 } else i
  | [], _ => rfl
  | i :: is, h => by
    rw [List.map_cons, List.nodup_cons] at h
    rw [bump, List.map_cons]
    by_cases hi : i.name = n
    · have hall : ∀ j ∈ is, j.name ≠ n := by
        intro j hj he
        exact h.1 (by rw [hi, ← he]; exact List.mem_map_of_mem (f := (·.name)) hj)
      have : is.map (fun i => if i.name = n then { i with num := i.num + 1 } else i) = is := by
        rw [List.map_congr_left (g := id) (fun j hj => by simp [hall j hj]), List.map_id]
      rw [if_pos ⟨hi, by simpa using hall⟩, if_pos hi, this]
    · rw [if_neg (fun x => hi x.1), if_neg hi, bump_eq h.2]

/-- Where the name of an import comes from. -/
structure Named (B : List Bytes) (s : List Imp) : Prop where
  nodup : (s.map (·.name)).Nodup
  origin : ∀ i ∈ s, i.name ∈ B ∨
    ∃ b ∈ B, ∃ k, 1 ≤ k ∧ i.name = b ++ itoa k ∧ ∃ j ∈ s, j.name = b ∧ k ≤ j.num

theorem digits_split {b n d e : Bytes} (h : b ++ d = n ++ e) (hd : d.all (·.isDigit) = true)
    (he : e.all (·.isDigit) = true) :
    b = n ∨ ∃ x, x ≠ [] ∧ x.all (·.isDigit) = true ∧ (b = n ++ x ∨ n = b ++ x) := by
  rw [List.append_eq_append_iff] at h
  rcases h with ⟨x, h1, h2⟩ | ⟨x, h1, h2⟩
  · by_cases hx : x = []
    · left; rw [h1, hx, List.append_nil]
    · right
      rw [h2, List.all_append, Bool.and_eq_true] at hd
      exact ⟨x, hx, hd.1, .inr h1⟩
  · by_cases hx : x = []
    · left; rw [h1, hx, List.append_nil]
    · right
      rw [h2, List.all_append, Bool.and_eq_true] at he
      exact ⟨x, hx, he.1, .inl h1⟩

theorem itoa_digits (n : Nat) : (itoa n).all (·.isDigit) = true := by
  rw [List.all_eq_true]; exact fun c hc => isDigit_of_mem_itoa hc

theorem name_inj {s : List Imp} (h : (s.map (·.name)).Nodup) {i j : Imp} (hi : i ∈ s) (hj : j ∈ s)
    (he : i.name = j.name) : i = j := by
  induction s with
  | nil => cases hi
  | cons a s ih =>
    rw [List.map_cons, List.nodup_cons] at h
    rcases List.mem_cons.1 hi with hi' | hi' <;> rcases List.mem_cons.1 hj with hj' | hj'
    · rw [hi', hj']
    · exact absurd (List.mem_map.2 ⟨j, hj', by rw [← he, hi']⟩) h.1
    · exact absurd (List.mem_map.2 ⟨i, hi', by rw [he, hj']⟩) h.1
    · exact ih h.2 hi' hj'

theorem addImport_named {B : List Bytes} {s : List Imp} (hs : Named B s) (r : Request)
    (hr : impName r.1 r.2 ∈ B)
    (hB : ∀ b ∈ B, ∀ b' ∈ B, ∀ d : Bytes, d ≠ [] → d.all (·.isDigit) = true → b' ≠ b ++ d) :
    Named B (addImport s r.1 r.2).1 := by
  unfold addImport
  cases h : s.find? (fun i => i.path = r.1) with
  | some i => exact hs
  | none =>
    simp only []
    cases hk : s.reverse.find? (fun i => i.name = impName r.1 r.2) with
    | none =>
      simp only []
      have hnew : impName r.1 r.2 ∉ s.map (·.name) := by
        intro hm
        obtain ⟨i, hi, he⟩ := List.mem_map.1 hm
        rw [List.find?_eq_none] at hk
        exact hk i (List.mem_reverse.2 hi) (by simpa using he)
      constructor
      · rw [List.map_append, List.nodup_append]
        refine ⟨hs.nodup, by simp, ?_⟩
        rintro a ha b hb rfl
        simp only [List.map_cons, List.map_nil, List.mem_singleton] at hb
        exact hnew (hb ▸ ha)
      · intro i hi
        rcases List.mem_append.1 hi with hi | hi
        · rcases hs.origin i hi with h | ⟨b, hb, k, h1, h2, j, hj, h3⟩
          · exact .inl h
          · exact .inr ⟨b, hb, k, h1, h2, j, List.mem_append_left _ hj, h3⟩
        · rw [List.mem_singleton] at hi
          left; rw [hi]; exact hr
    | some k =>
      simp only []
      have hkm : k ∈ s := List.mem_reverse.1 (List.mem_of_find?_eq_some hk)
      have hkn : k.name = impName r.1 r.2 := by simpa using List.find?_some hk
      have hnew : impName r.1 r.2 ++ itoa (k.num + 1) ∉ s.map (·.name) := by
        intro hm
        obtain ⟨i, hi, he⟩ := List.mem_map.1 hm
        rcases hs.origin i hi with ho | ⟨b, hb, m, h1, h2, j, hj, h3, h4⟩
        · exact hB _ hr _ ho _ (itoa_ne_nil _) (itoa_digits _) he
        · rw [h2] at he
          rcases digits_split he (itoa_digits _) (itoa_digits _) with hbn | ⟨x, hx, hxd, hbn | hbn⟩
          · rw [hbn] at he
            have := itoa_inj (List.append_cancel_left he)
            have : j = k := name_inj hs.nodup hj hkm (by rw [h3, hbn, hkn])
            rw [this] at h4
            omega
          · exact hB _ hr _ hb _ hx hxd hbn
          · exact hB _ hb _ hr _ hx hxd hbn
      have hbump := bump_eq (n := impName r.1 r.2) hs.nodup
      have hname : (bump (impName r.1 r.2) s).map (·.name) = s.map (·.name) := by
        rw [map_name, bump_face, ← map_name]
      have hup : ∀ j ∈ s, ∃ j' ∈ bump (impName r.1 r.2) s, j'.name = j.name ∧ j.num ≤ j'.num ∧
          (j.name = impName r.1 r.2 → j'.num = j.num + 1) := by
        intro j hj
        refine ⟨_, by rw [hbump]; exact List.mem_map_of_mem hj, ?_⟩
        by_cases hjn : j.name = impName r.1 r.2
        · rw [if_pos hjn]; exact ⟨rfl, Nat.le_succ _, fun _ => rfl⟩
        · rw [if_neg hjn]; exact ⟨rfl, Nat.le_refl _, fun h => absurd h hjn⟩
      constructor
      · rw [List.map_append, List.nodup_append, hname]
        refine ⟨hs.nodup, by simp, ?_⟩
        rintro a ha b hb rfl
        simp only [List.map_cons, List.map_nil, List.mem_singleton] at hb
        exact hnew (hb ▸ ha)
      · intro i hi
        rcases List.mem_append.1 hi with hi | hi
        · have : i.name ∈ s.map (·.name) := by rw [← hname]; exact List.mem_map_of_mem (f := (·.name)) hi
          obtain ⟨i0, hi0, he⟩ := List.mem_map.1 this
          rw [← he]
          rcases hs.origin i0 hi0 with h | ⟨b, hb, m, h1, h2, j, hj, h3, h4⟩
          · exact .inl h
          · obtain ⟨j', hj', g1, g2, _⟩ := hup j hj
            exact .inr ⟨b, hb, m, h1, h2, j', List.mem_append_left _ hj', by rw [g1, h3], by omega⟩
        · rw [List.mem_singleton] at hi
          obtain ⟨k', hk', g1, _, g3⟩ := hup k hkm
          right
          exact ⟨_, hr, k.num + 1, by omega, by rw [hi], k', List.mem_append_left _ hk',
            by rw [g1, hkn], by rw [g3 hkn]; exact Nat.le_refl _⟩

/-- **C43** The names of the imports are distinct. -/
theorem C43_names_partial {rs : List Request} (h : NotNumbered rs) :
    ((addImports [] rs).map (·.name)).Nodup := by
  have hB : ∀ b ∈ rs.map (fun r => impName r.1 r.2), ∀ b' ∈ rs.map (fun r => impName r.1 r.2),
      ∀ d : Bytes, d ≠ [] → d.all (·.isDigit) = true → b' ≠ b ++ d := by
    intro b hb b' hb' d hd hdd
    obtain ⟨r, hr, rfl⟩ := List.mem_map.1 hb
    obtain ⟨r', hr', rfl⟩ := List.mem_map.1 hb'
    exact h r hr r' hr' d hd hdd
  have main : ∀ (l : List Request) (s : List Imp), (∀ r ∈ l, impName r.1 r.2 ∈ rs.map (fun r => impName r.1 r.2)) →
      Named (rs.map fun r => impName r.1 r.2) s → Named (rs.map fun r => impName r.1 r.2) (addImports s l) := by
    intro l
    induction l with
    | nil => intro s _ hs; exact hs
    | cons r l ih =>
      intro s hl hs
      exact ih _ (fun x hx => hl x (List.mem_cons_of_mem _ hx))
        (addImport_named hs r (hl r (List.mem_cons_self ..)) hB)
  exact (main rs [] (fun r hr => List.mem_map.2 ⟨r, hr, rfl⟩) ⟨by simp, by simp⟩).nodup

/-- **C43** The declaration lists all imports: first those of the standard library, then those whose path
contains a dot, then those of this module. -/
theorem C43_declaration (s : List Imp) : (importDecl s).Perm (s.map specOf) ∧
    ∃ a b c, importDecl s = a ++ b ++ c ∧ (∀ x ∈ a, isGosql x = false ∧ hasDot x = false) ∧
      (∀ x ∈ b, isGosql x = false ∧ hasDot x = true) ∧ ∀ x ∈ c, isGosql x = true := by
  constructor
  · unfold importDecl
    generalize s.map specOf = l
    simp only []
    refine List.Perm.trans ?_ (List.filter_append_perm (fun x => !isGosql x) l)
    have : (l.filter fun x => !isGosql x).Perm
        ((l.filter fun x => !isGosql x && !hasDot x) ++ l.filter fun x => !isGosql x && hasDot x) := by
      refine (List.filter_append_perm (fun x => !hasDot x) (l.filter fun x => !isGosql x)).symm.trans ?_
      rw [List.filter_filter, List.filter_filter]
      simp only [Bool.not_not, Bool.and_comm]
      exact .rfl
    simp only [Bool.not_not]
    exact this.symm.append_right _
  · refine ⟨_, _, _, rfl, ?_, ?_, ?_⟩ <;> simp [List.mem_filter]

/-- Three packages of the same name, one requested twice. -/
theorem C43_example :
    let rs := [(b!"a/foo", b!"foo"), (b!"b/foo", b!""), (b!"a/foo", b!"foo"), (b!"x.y/foo", b!"foo"),
      (b!"github.com/frk/gosql", b!"gosql")]
    (addImports [] rs).map Imp.face = [(b!"a/foo", b!"foo", false), (b!"b/foo", b!"foo1", true),
      (b!"x.y/foo", b!"foo2", true), (b!"github.com/frk/gosql", b!"gosql", false)] ∧
    importDecl (addImports [] rs) = [⟨b!"", b!"a/foo"⟩, ⟨b!"foo1", b!"b/foo"⟩, ⟨b!"foo2", b!"x.y/foo"⟩,
      ⟨b!"", b!"github.com/frk/gosql"⟩] := by decide +kernel

/-- The hypothesis of `C43_names_partial` holds for them. -/
theorem C43_example_names : NotNumbered [(b!"a/foo", b!"foo"), (b!"b/foo", b!""), (b!"x.y/foo", b!"foo"),
    (b!"github.com/frk/gosql", b!"gosql")] := by
  intro r hr r' hr' d hd hdd he
  have hb : ∀ x ∈ [(b!"a/foo", b!"foo"), (b!"b/foo", b!""), (b!"x.y/foo", b!"foo"),
      (b!"github.com/frk/gosql", b!"gosql")], impName x.1 x.2 = b!"foo" ∨ impName x.1 x.2 = b!"gosql" := by
    decide +kernel
  have hl : ∃ c, d.getLast? = some c ∧ c.isDigit = true := by
    cases hx : d.getLast? with
    | none => exact absurd (List.getLast?_eq_none_iff.1 hx) hd
    | some c => exact ⟨c, rfl, List.all_eq_true.1 hdd c (List.mem_of_getLast? hx)⟩
  obtain ⟨c, hc, hcd⟩ := hl
  have hlast : (impName r'.1 r'.2).getLast? = some c := by rw [he, List.getLast?_append, hc]; rfl
  rcases hb r' hr' with h | h <;> rw [h] at hlast <;> cases hlast <;> exact absurd hcd (by decide)

/-- **C43** A package that is named like a renamed one and was added before it: two imports have the same
name. -/
theorem C43_not_numbered :
    (addImports [] [(b!"c/foo1", b!"foo1"), (b!"a/foo", b!"foo"), (b!"b/foo", b!"foo")]).map Imp.face =
      [(b!"c/foo1", b!"foo1", false), (b!"a/foo", b!"foo", false), (b!"b/foo", b!"foo1", true)] := by
  decide +kernel

end Verif.Generator
