import Verif.Generator.Output
import Verif.Generator.PropsParams2

/- C62: the pointers on the way to the scanned fields. -/
namespace Verif.Generator
open Verif.Analysis Verif.Postgres

/-- The node at the end of the path is a pointer. -/
def EndsInPointer (p : List SelNode) : Prop := ∃ n, p.getLast? = some n ∧ n.isPointer = true

theorem endsInPointer_append (p : List SelNode) (n : SelNode) :
    EndsInPointer (p ++ [n]) ↔ n.isPointer = true := by
  simp [EndsInPointer]

/-- The invariant of the loop over the nodes of a field. -/
structure Inits (done : List Bytes) (p ns : List SelNode) (l : List PtrInit) (done' : List Bytes) : Prop where
  keys : ∀ k, k ∈ done' ↔ k ∈ done ∨ k ∈ l.map nodeKey
  once : (l.map nodeKey).Nodup
  fresh : ∀ x ∈ l, nodeKey x ∉ done
  path : ∀ x ∈ l, p <+: x ∧ x ≠ p ∧ x <+: p ++ ns ∧ EndsInPointer x
  all : ∀ x, p <+: x → x ≠ p → x <+: p ++ ns → EndsInPointer x → nodeKey x ∈ done'
  ordered : ∀ a x b, l = a ++ x :: b → ∀ y, p <+: y → y ≠ p → y <+: x → y ≠ x → EndsInPointer y →
    nodeKey y ∈ done ∨ nodeKey y ∈ a.map nodeKey

theorem prefix_step {p x ns : List SelNode} {n : SelNode} (h : p <+: x) (hne : x ≠ p)
    (hx : x <+: p ++ n :: ns) : p ++ [n] <+: x := by
  obtain ⟨r, rfl⟩ := h
  cases r with
  | nil => simp at hne
  | cons m r =>
    rw [List.prefix_append_right_inj, List.cons_prefix_cons] at hx
    rw [hx.1, List.prefix_append_right_inj]
    exact ⟨r, rfl⟩

theorem nodeInits_spec : ∀ (ns : List SelNode) (done : List Bytes) (p : List SelNode),
    Inits done p ns (nodeInits done p ns).1 (nodeInits done p ns).2
  | [], done, p => by
    refine ⟨by simp [nodeInits], by simp [nodeInits], by simp [nodeInits], by simp [nodeInits], ?_, ?_⟩
    · intro x h1 h2 h3
      rw [List.append_nil] at h3
      exact absurd (List.IsPrefix.eq_of_length h3 (Nat.le_antisymm h3.length_le h1.length_le)) h2
    · intro a x b h
      simp [nodeInits] at h
  | n :: ns, done, p => by
    have e : p ++ n :: ns = (p ++ [n]) ++ ns := by simp
    have hne : p ++ [n] ≠ p := by simp
    have hpre : p <+: p ++ [n] := ⟨[n], rfl⟩
    have longer : ∀ x, p ++ [n] <+: x → p <+: x ∧ x ≠ p := fun x h =>
      ⟨hpre.trans h, fun hx => by have := h.length_le; rw [hx] at this; simp at this; omega⟩
    by_cases hc : (n.isPointer && !done.contains (nodeKey (p ++ [n]))) = true
    · have h := nodeInits_spec ns (nodeKey (p ++ [n]) :: done) (p ++ [n])
      have heq : nodeInits done p (n :: ns) =
          ((p ++ [n]) :: (nodeInits (nodeKey (p ++ [n]) :: done) (p ++ [n]) ns).1,
            (nodeInits (nodeKey (p ++ [n]) :: done) (p ++ [n]) ns).2) := by
        rw [nodeInits, if_pos hc]
      rw [heq]
      simp only [Bool.and_eq_true, Bool.not_eq_true', List.contains_eq_mem, decide_eq_false_iff_not] at hc
      generalize hl : (nodeInits (nodeKey (p ++ [n]) :: done) (p ++ [n]) ns).1 = l at h ⊢
      generalize hd : (nodeInits (nodeKey (p ++ [n]) :: done) (p ++ [n]) ns).2 = d at h ⊢
      constructor
      · intro k
        rw [h.keys, List.map_cons, List.mem_cons, List.mem_cons]
        constructor
        · rintro ((h | h) | h)
          · exact .inr (.inl h)
          · exact .inl h
          · exact .inr (.inr h)
        · rintro (h | h | h)
          · exact .inl (.inr h)
          · exact .inl (.inl h)
          · exact .inr h
      · rw [List.map_cons, List.nodup_cons]
        refine ⟨fun hm => ?_, h.once⟩
        obtain ⟨x, hx, he⟩ := List.mem_map.1 hm
        exact h.fresh x hx (by rw [he]; exact List.mem_cons_self ..)
      · intro x hx
        rcases List.mem_cons.1 hx with rfl | hx
        · exact hc.2
        · exact fun hm => h.fresh x hx (List.mem_cons_of_mem _ hm)
      · intro x hx
        rcases List.mem_cons.1 hx with rfl | hx
        · refine ⟨hpre, hne, ?_, (endsInPointer_append p n).2 hc.1⟩
          rw [e]; exact ⟨ns, rfl⟩
        · obtain ⟨h1, h2, h3, h4⟩ := h.path x hx
          exact ⟨(longer x h1).1, (longer x h1).2, by rw [e]; exact h3, h4⟩
      · intro x h1 h2 h3 h4
        have hs := prefix_step h1 h2 h3
        by_cases hx : x = p ++ [n]
        · rw [h.keys, hx]; exact .inl (List.mem_cons_self ..)
        · exact h.all x hs hx (by rw [← e]; exact h3) h4
      · intro a x b hab y h1 h2 h3 h4 h5
        have hxp : x <+: p ++ n :: ns := by
          have hx : x ∈ (p ++ [n]) :: l := by
            have : (p ++ [n]) :: l = a ++ x :: b := hab
            rw [this]; simp
          rcases List.mem_cons.1 hx with rfl | hx
          · rw [e]; exact ⟨ns, rfl⟩
          · rw [e]; exact (h.path x hx).2.2.1
        have hs := prefix_step h1 h2 (h3.trans hxp)
        cases a with
        | nil =>
          simp only [List.nil_append, List.cons.injEq] at hab
          rw [← hab.1] at h3 h4
          exact absurd (h3.eq_of_length (Nat.le_antisymm h3.length_le hs.length_le)) h4
        | cons a0 a =>
          simp only [List.cons_append, List.cons.injEq] at hab
          rw [List.map_cons, List.mem_cons, ← hab.1]
          by_cases hy : y = p ++ [n]
          · right; left; rw [hy]
          · rcases h.ordered a x b hab.2 y hs hy h3 h4 h5 with hm | hm
            · rcases List.mem_cons.1 hm with hm | hm
              · exact .inr (.inl hm)
              · exact .inl hm
            · exact .inr (.inr hm)
    · have h := nodeInits_spec ns done (p ++ [n])
      have heq : nodeInits done p (n :: ns) = nodeInits done (p ++ [n]) ns := by
        rw [nodeInits, if_neg hc]
      rw [heq]
      have hin : EndsInPointer (p ++ [n]) → nodeKey (p ++ [n]) ∈ done := by
        intro hp
        rw [endsInPointer_append] at hp
        simpa [hp] using hc
      constructor
      · exact h.keys
      · exact h.once
      · exact h.fresh
      · intro x hx
        obtain ⟨h1, h2, h3, h4⟩ := h.path x hx
        exact ⟨(longer x h1).1, (longer x h1).2, by rw [e]; exact h3, h4⟩
      · intro x h1 h2 h3 h4
        have hs := prefix_step h1 h2 h3
        by_cases hx : x = p ++ [n]
        · rw [h.keys]; left; rw [hx]; exact hin (hx ▸ h4)
        · exact h.all x hs hx (by rw [← e]; exact h3) h4
      · intro a x b hab y h1 h2 h3 h4 h5
        have hx : x ∈ (nodeInits done (p ++ [n]) ns).1 := by rw [hab]; simp
        have hs := prefix_step h1 h2 (h3.trans (by rw [e]; exact (h.path x hx).2.2.1))
        by_cases hy : y = p ++ [n]
        · left; rw [hy]; exact hin (hy ▸ h5)
        · exact h.ordered a x b hab y hs hy h3 h4 h5

/-- `p` leads to a pointer on the way to a field that is read. -/
def PointerOf (rs : List FieldRead) (p : List SelNode) : Prop :=
  ∃ r ∈ rs, p <+: r.field.selector ∧ EndsInPointer p

/-- The invariant of the loop over the fields. -/
structure AllInits (done : List Bytes) (rs : List FieldRead) (l : List PtrInit) : Prop where
  once : (l.map nodeKey).Nodup
  fresh : ∀ x ∈ l, nodeKey x ∉ done
  path : ∀ x ∈ l, PointerOf rs x
  all : ∀ x, PointerOf rs x → nodeKey x ∈ done ∨ nodeKey x ∈ l.map nodeKey
  ordered : ∀ a x b, l = a ++ x :: b → ∀ y, y <+: x → y ≠ x → EndsInPointer y →
    nodeKey y ∈ done ∨ nodeKey y ∈ a.map nodeKey

theorem not_nil_of_pointer {p : List SelNode} (h : EndsInPointer p) : p ≠ [] := by
  rintro rfl
  obtain ⟨n, h, _⟩ := h
  cases h

/-- The place of an element in a concatenation. -/
theorem append_split {α : Type} {l1 l2 a b : List α} {x : α} (h : l1 ++ l2 = a ++ x :: b) :
    (∃ b', l1 = a ++ x :: b') ∨ ∃ a', a = l1 ++ a' ∧ l2 = a' ++ x :: b := by
  rw [List.append_eq_append_iff] at h
  rcases h with ⟨a', h1, h2⟩ | ⟨c, h1, h2⟩
  · exact .inr ⟨a', h1, h2⟩
  · cases c with
    | nil =>
      rw [List.append_nil] at h1
      exact .inr ⟨[], by simp [h1], by simpa using h2.symm⟩
    | cons c0 c =>
      rw [List.cons_append, List.cons.injEq] at h2
      exact .inl ⟨c, by rw [h1, h2.1]⟩

theorem readInits_spec : ∀ (rs : List FieldRead) (done : List Bytes), AllInits done rs (readInits done rs)
  | [], done => by
    refine ⟨by simp [readInits], by simp [readInits], by simp [readInits], ?_, ?_⟩
    · rintro x ⟨r, hr, _⟩; cases hr
    · intro a x b h; simp [readInits] at h
  | r :: rs, done => by
    have h1 := nodeInits_spec r.field.selector done []
    have h2 := readInits_spec rs (nodeInits done [] r.field.selector).2
    rw [readInits]
    generalize (nodeInits done [] r.field.selector).1 = l1 at h1 ⊢
    generalize (nodeInits done [] r.field.selector).2 = d at h1 h2 ⊢
    generalize readInits d rs = l2 at h2 ⊢
    constructor
    · rw [List.map_append, List.nodup_append]
      refine ⟨h1.once, h2.once, ?_⟩
      rintro k hk k' hk' rfl
      obtain ⟨x, hx, he⟩ := List.mem_map.1 hk'
      exact h2.fresh x hx (by rw [he, h1.keys]; exact .inr hk)
    · intro x hx
      rcases List.mem_append.1 hx with hx | hx
      · exact h1.fresh x hx
      · exact fun hm => h2.fresh x hx ((h1.keys _).2 (.inl hm))
    · intro x hx
      rcases List.mem_append.1 hx with hx | hx
      · obtain ⟨_, _, h3, h4⟩ := h1.path x hx
        exact ⟨r, List.mem_cons_self .., by simpa using h3, h4⟩
      · obtain ⟨r', hr', h⟩ := h2.path x hx
        exact ⟨r', List.mem_cons_of_mem _ hr', h⟩
    · rintro x ⟨r', hr', hp, he⟩
      rw [List.map_append, List.mem_append]
      rcases List.mem_cons.1 hr' with rfl | hr'
      · have := h1.all x (List.nil_prefix ..) (not_nil_of_pointer he) (by simpa using hp) he
        rw [h1.keys] at this
        rcases this with h | h
        · exact .inl h
        · exact .inr (.inl h)
      · rcases h2.all x ⟨r', hr', hp, he⟩ with h | h
        · rw [h1.keys] at h
          rcases h with h | h
          · exact .inl h
          · exact .inr (.inl h)
        · exact .inr (.inr h)
    · intro a x b hab y hy hne he
      rcases append_split hab with ⟨b', h⟩ | ⟨a', rfl, h⟩
      · exact h1.ordered a x b' h y (List.nil_prefix ..) (not_nil_of_pointer he) hy hne he
      · rw [List.map_append, List.mem_append]
        rcases h2.ordered a' x b h y hy hne he with hm | hm
        · rw [h1.keys] at hm
          rcases hm with hm | hm
          · exact .inl hm
          · exact .inr (.inl hm)
        · exact .inr (.inr hm)

/-- The pointer a path leads to, as Go names it. -/
def names (p : List SelNode) : List Bytes := p.map (·.name)

/-- No two pointers have names that are the same when written without the dots. -/
def NoCollision (rs : List FieldRead) : Prop :=
  ∀ p p', PointerOf rs p → PointerOf rs p' → (names p).flatten = (names p').flatten → names p = names p'

theorem nodeKey_eq (p : List SelNode) : nodeKey p = (names p).flatten := by
  simp [nodeKey, names, List.flatMap]

/-- **C62** Only pointers on the way to scanned fields are set, and none of them twice. -/
theorem C62_once (q : Query) (t : TargetInfo) :
    ((fieldInits q t).map names).Nodup ∧ ∀ p ∈ fieldInits q t, PointerOf t.reads p := by
  unfold fieldInits
  split
  · simp
  · have h := readInits_spec t.reads []
    refine ⟨?_, h.path⟩
    have := h.once
    rw [List.nodup_iff_pairwise_ne, List.pairwise_map] at this ⊢
    exact this.imp fun hne he => hne (by rw [nodeKey_eq, nodeKey_eq, he])

/-- **C62** Unless the record was given by the caller, every pointer on the way to a scanned field is set. -/
theorem C62_set_partial {q : Query} {t : TargetInfo} (hs : canSkipRelInit q = false)
    (hn : NoCollision t.reads) {p : List SelNode} (hp : PointerOf t.reads p) :
    names p ∈ (fieldInits q t).map names := by
  have h := readInits_spec t.reads []
  rw [fieldInits, if_neg (by simp [hs])]
  rcases h.all p hp with hm | hm
  · cases hm
  · obtain ⟨x, hx, he⟩ := List.mem_map.1 hm
    rw [nodeKey_eq, nodeKey_eq] at he
    exact List.mem_map.2 ⟨x, hx, hn _ _ (h.path x hx) hp he⟩

/-- **C62** When a pointer is set all pointers on the way to it have been set before. -/
theorem C62_parents_first_partial {q : Query} {t : TargetInfo} (hn : NoCollision t.reads)
    {a b : List PtrInit} {p : List SelNode} (h : fieldInits q t = a ++ p :: b) {p' : List SelNode}
    (hp : p' <+: p) (hne : p' ≠ p) (he : EndsInPointer p') : names p' ∈ a.map names := by
  unfold fieldInits at h
  split at h
  · simp at h
  · have hi := readInits_spec t.reads []
    have hpo : ∀ x ∈ a ++ p :: b, PointerOf t.reads x := fun x hx => hi.path x (h ▸ hx)
    obtain ⟨r, hr, hpr, _⟩ := hpo p (by simp)
    rcases hi.ordered a p b h p' hp hne he with hm | hm
    · cases hm
    · obtain ⟨x, hx, hk⟩ := List.mem_map.1 hm
      rw [nodeKey_eq, nodeKey_eq] at hk
      exact List.mem_map.2 ⟨x, hx,
        hn _ _ (hpo x (List.mem_append_left _ hx)) ⟨r, hr, hp.trans hpr, he⟩ hk⟩

/-! ### Examples and exceptions -/

/-- `type n struct { fs }`. -/
def structTy (n : Bytes) (fs : List Analysis.Field) : Ty :=
  .named { name := n, pkg := some { path := b!"p", name := b!"p" } } (.struct (.ofList fs))

/-- A field with a pointer to a struct whose fields belong to the record: `sql:">"`. -/
def nestFld (n : Bytes) (t : Ty) : Analysis.Field := sqlFld n [b!">"] (.ptr t)

/-- `type User struct { A *struct { B *struct { Id; Name } }; C *struct { Age } }`. -/
def deepTy : Ty :=
  structTy b!"User"
    [nestFld b!"A" (structTy b!"TA" [nestFld b!"B" (structTy b!"TB"
        [sqlFld b!"Id" [b!"id"] Analysis.intTy, sqlFld b!"Name" [b!"name"] strTy])]),
      nestFld b!"C" (structTy b!"TC" [sqlFld b!"Age" [b!"age"] Analysis.intTy])]

/-- The beginnings of a path. -/
def prefixes : List SelNode → List (List SelNode)
  | [] => [[]]
  | n :: ns => [] :: (prefixes ns).map (n :: ·)

theorem mem_prefixes {l p : List SelNode} : p ∈ prefixes l ↔ p <+: l := by
  induction l generalizing p with
  | nil => simp [prefixes]
  | cons n ns ih =>
    cases p with
    | nil => simp [prefixes]
    | cons m p =>
      simp only [prefixes, List.mem_cons, List.mem_map, List.cons_prefix_cons, reduceCtorEq, false_or, ← ih]
      constructor
      · rintro ⟨a, ha, he⟩; cases he; exact ⟨rfl, ha⟩
      · rintro ⟨rfl, h⟩; exact ⟨p, h, rfl⟩

/-- All the pointers to the fields. -/
def pointers (rs : List FieldRead) : List (List SelNode) :=
  rs.flatMap fun r => (prefixes r.field.selector).filter fun p => p.getLast?.any (·.isPointer)

theorem mem_pointers {rs : List FieldRead} {p : List SelNode} : p ∈ pointers rs ↔ PointerOf rs p := by
  simp only [pointers, PointerOf, EndsInPointer, List.mem_flatMap, List.mem_filter, mem_prefixes,
    Option.any_eq_true]

theorem noCollision_of {rs : List FieldRead}
    (h : ∀ p ∈ pointers rs, ∀ p' ∈ pointers rs, (names p).flatten = (names p').flatten → names p = names p') :
    NoCollision rs :=
  fun p p' hp hp' => h p (mem_pointers.2 hp) p' (mem_pointers.2 hp')

/-- The hypotheses of C62 hold for a select of such records. -/
theorem C62_example : ∃ q t, Built shopCat q t ∧ canSkipRelInit q = false ∧ NoCollision t.reads ∧
    (fieldInits q t).map names = [[b!"A"], [b!"A", b!"B"], [b!"C"]] ∧
    outputArgs q t = [.addr (path [b!"Users", b!"A", b!"B", b!"Id"]),
      .addr (path [b!"Users", b!"A", b!"B", b!"Name"]), .addr (path [b!"Users", b!"C", b!"Age"])] := by
  obtain ⟨q, t, c, hb, hc, hp⟩ := code_of (env := env0) (cat := shopCat) (n := b!"SelectUser")
    (fs := [relFld (.ptr deepTy)])
    (P := fun q t _ => decide (canSkipRelInit q = false ∧
      (∀ p ∈ pointers t.reads, ∀ p' ∈ pointers t.reads,
        (names p).flatten = (names p').flatten → names p = names p') ∧
      (fieldInits q t).map names = [[b!"A"], [b!"A", b!"B"], [b!"C"]] ∧
      outputArgs q t = [.addr (path [b!"Users", b!"A", b!"B", b!"Id"]),
        .addr (path [b!"Users", b!"A", b!"B", b!"Name"]), .addr (path [b!"Users", b!"C", b!"Age"])]))
    (by decide +kernel)
  obtain ⟨h1, h2, h3, h4⟩ := of_decide_eq_true hp
  exact ⟨q, t, hb, h1, noCollision_of h2, h3, h4⟩

/-- `type User struct { A *struct { BC *struct { Id } }; AB *struct { C *struct { Name } } }`. -/
def collisionTy : Ty :=
  structTy b!"User"
    [nestFld b!"A" (structTy b!"TA" [nestFld b!"BC" (structTy b!"TB" [sqlFld b!"Id" [b!"id"] Analysis.intTy])]),
      nestFld b!"AB" (structTy b!"TC" [nestFld b!"C" (structTy b!"TD" [sqlFld b!"Name" [b!"name"] strTy])])]

/-- **C62** `A.BC` and `AB.C` are not told apart: the second is not set although it leads to a field that
is scanned, so the method dereferences nil. -/
theorem C62_not_collision : ∃ q t, Built shopCat q t ∧ canSkipRelInit q = false ∧
    (∃ p, PointerOf t.reads p ∧ names p ∉ (fieldInits q t).map names) ∧
    (fieldInits q t).map names = [[b!"A"], [b!"A", b!"BC"], [b!"AB"]] ∧
    outputArgs q t = [.addr (path [b!"Users", b!"A", b!"BC", b!"Id"]),
      .addr (path [b!"Users", b!"AB", b!"C", b!"Name"])] := by
  obtain ⟨q, t, c, hb, hc, hp⟩ := code_of (env := env0) (cat := shopCat) (n := b!"SelectUser")
    (fs := [relFld (.ptr collisionTy)])
    (P := fun q t _ => decide (canSkipRelInit q = false ∧
      (∃ p ∈ pointers t.reads, names p ∉ (fieldInits q t).map names) ∧
      (fieldInits q t).map names = [[b!"A"], [b!"A", b!"BC"], [b!"AB"]] ∧
      outputArgs q t = [.addr (path [b!"Users", b!"A", b!"BC", b!"Id"]),
        .addr (path [b!"Users", b!"AB", b!"C", b!"Name"])]))
    (by decide +kernel)
  obtain ⟨h1, ⟨p, hp, hn⟩, h3, h4⟩ := of_decide_eq_true hp
  exact ⟨q, t, hb, h1, ⟨p, mem_pointers.1 hp, hn⟩, h3, h4⟩

/-- **C62** Nothing is set in a record that was given by the caller: there the columns of an insert are
returned through whatever pointers the caller has set. -/
theorem C62_not_input : ∃ q t, Built shopCat q t ∧ fieldInits q t = [] ∧
    outputArgs q t = [.addr (path [b!"Users", b!"A", b!"B", b!"Id"]),
      .addr (path [b!"Users", b!"A", b!"B", b!"Name"]), .addr (path [b!"Users", b!"C", b!"Age"])] := by
  obtain ⟨q, t, c, hb, hc, hp⟩ := code_of (env := env0) (cat := shopCat) (n := b!"InsertUser")
    (fs := [relFld (.ptr deepTy), returnFld])
    (P := fun q t _ => decide (fieldInits q t = [] ∧
      outputArgs q t = [.addr (path [b!"Users", b!"A", b!"B", b!"Id"]),
        .addr (path [b!"Users", b!"A", b!"B", b!"Name"]), .addr (path [b!"Users", b!"C", b!"Age"])]))
    (by decide +kernel)
  exact ⟨q, t, hb, of_decide_eq_true hp⟩

end Verif.Generator
