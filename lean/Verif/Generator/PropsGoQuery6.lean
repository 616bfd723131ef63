import Verif.Generator.PropsGoQuery5

/- C110: the fields of imported where structs. -/
namespace Verif.Generator.Scoped
open Verif.Analysis Verif.Postgres

/-- The generated code may refer to the field: it is exported, or its struct type is not one of another package. -/
def Selectable (pkg : Bytes) (n : Option NamedInfo) (h : FieldHdr) : Prop :=
  h.exported = true ∨ ∀ i, n = some i → ∃ p, i.pkg = some p ∧ p.path = pkg

/-- The bound of a range is a field that may be used. -/
def BoundOpen (pkg : Bytes) (n : Option NamedInfo) (F : List Analysis.Field) (b : Bound) : Prop :=
  ∀ m ti, b = .field m ti → ∃ f ∈ F, f.1.name = m ∧ Selectable pkg n f.1

/-- The conditions of an imported struct come from exported fields, at every depth. -/
inductive ItemOpen (pkg : Bytes) : List Analysis.Field → WItem → Prop
  | bool {F : List Analysis.Field} {b : Bool} : ItemOpen pkg F (.bool b)
  | column {F : List Analysis.Field} {c : ColCond} : ItemOpen pkg F (.column c)
  | field {F : List Analysis.Field} {h : FieldHdr} {t : Ty} {f : FieldCond} : (h, t) ∈ F → f.name = h.name →
      h.exported = true → ItemOpen pkg F (.field f)
  | between {F : List Analysis.Field} {h : FieldHdr} {t : Ty} {n : Option NamedInfo} {fs : Fields} {b : BetweenCond} :
      (h, t) ∈ F → b.name = h.name → h.exported = true → getStruct t = some (n, fs) →
      BoundOpen pkg n fs.toList b.lower → BoundOpen pkg n fs.toList b.upper → ItemOpen pkg F (.between b)
  | nested {F : List Analysis.Field} {h : FieldHdr} {t : Ty} {fs : Fields} {n : Bytes} {l : List WItem} : (h, t) ∈ F →
      n = h.name → n = b!"_" ∨ h.exported = true → structOf t = some fs → (∀ i ∈ l, ItemOpen pkg fs.toList i) →
      ItemOpen pkg F (.nested n l)

theorem isAccessible_usable {p nm : Bytes} {h : FieldHdr} {n : Option NamedInfo}
    (e : isAccessible p nm h.exported n = .ok true) : Selectable p n h := by
  unfold isAccessible at e
  split at e
  · simp at e
  · split at e
    · next hx => exact .inl hx
    · right
      rintro i rfl
      simp only [Res.map_eq_ok, isImportedType] at e
      obtain ⟨b, hb, e⟩ := e
      split at hb
      · cases hb
      · next q hq =>
        refine ⟨q, hq, ?_⟩
        cases hb
        simpa using e

theorem BoundOpen.mono {pkg : Bytes} {n : Option NamedInfo} {F G : List Analysis.Field} {b : Bound}
    (hs : ∀ f ∈ F, f ∈ G) (h : BoundOpen pkg n F b) : BoundOpen pkg n G b := by
  intro m ti e
  obtain ⟨f, hf, h⟩ := h m ti e
  exact ⟨f, hs f hf, h⟩

theorem betweenField_open {env : Env} {rs : RelSpace} {n : Option NamedInfo} {h : FieldHdr} {t : Ty} {b : Bound}
    {o : Option Bool} (e : betweenField env rs n h t = .ok (some (b, o))) : BoundOpen env.pkgPath n [(h, t)] b := by
  unfold betweenField at e
  simp only [Res.bind_eq_ok] at e
  obtain ⟨d, _, e⟩ := e
  split at e
  · simp only [Res.map_eq_ok] at e
    obtain ⟨_, _, e⟩ := e
    simp only [Option.some.injEq, Prod.mk.injEq] at e
    rw [← e.1]; intro m ti he; cases he
  · simp only [Res.bind_eq_ok] at e
    obtain ⟨a, ha, e⟩ := e
    split at e
    · next hh =>
      simp only [Res.map_eq_ok] at e
      obtain ⟨_, _, e⟩ := e
      simp only [Option.some.injEq, Prod.mk.injEq] at e
      rw [← e.1]; intro m ti he; cases he
      exact ⟨_, List.mem_cons_self, rfl, isAccessible_usable (hh ▸ ha)⟩
    · simp at e

theorem betweenBounds_open {env : Env} {rs : RelSpace} {t : Ty} {l u : Bound}
    (e : betweenBounds env rs t = .ok (l, u)) : ∃ n fs, getStruct t = some (n, fs) ∧
      BoundOpen env.pkgPath n fs.toList l ∧ BoundOpen env.pkgPath n fs.toList u := by
  unfold betweenBounds at e
  split at e
  · next n h1 t1 h2 t2 hg =>
    simp only [Res.bind_eq_ok] at e
    obtain ⟨b1, e1, b2, e2, e⟩ := e
    refine ⟨_, _, hg, ?_⟩
    have k1 : ∀ x o, b1 = some (x, o) → BoundOpen env.pkgPath n [(h1, t1), (h2, t2)] x := fun x o hx =>
      (betweenField_open (hx ▸ e1)).mono (by simp)
    have k2 : ∀ x o, b2 = some (x, o) → BoundOpen env.pkgPath n [(h1, t1), (h2, t2)] x := fun x o hx =>
      (betweenField_open (hx ▸ e2)).mono (by simp)
    show BoundOpen env.pkgPath n [(h1, t1), (h2, t2)] l ∧ BoundOpen env.pkgPath n [(h1, t1), (h2, t2)] u
    split at e
    · next l' u' hs =>
      cases e
      unfold setBound at hs
      grind
    · simp at e
  · simp at e

theorem whereLeaf_open {env : Env} {rs : RelSpace} {h : FieldHdr} {t : Ty} {F : List Analysis.Field} (hm : (h, t) ∈ F)
    (hx : h.name = b!"_" ∨ h.exported = true) {i : WItem} (e : whereLeaf env rs h t = .ok (some i)) :
    ItemOpen env.pkgPath F i := by
  unfold whereLeaf at e
  split at e
  · simp only [whereDirective, Res.bind_eq_ok] at e
    obtain ⟨d, _, e⟩ := e
    split at e
    · simp only [Res.bind_eq_ok, Res.map_eq_ok] at e
      obtain ⟨_, _, _, _, e⟩ := e
      cases e; exact .column
    · simp at e
  · next hn =>
    dsimp only at e
    split at e
    · simp only [whereBetween, Res.bind_eq_ok, Res.map_eq_ok] at e
      obtain ⟨_, _, b, hb, _, _, e⟩ := e
      cases e
      obtain ⟨n, fs, h1, h2, h3⟩ := betweenBounds_open hb
      exact .between hm rfl (hx.resolve_left hn) h1 h2 h3
    · simp only [whereField, Res.bind_eq_ok] at e
      obtain ⟨_, _, p, hp, _, _, _, _, _, _, _, h4, e⟩ := e
      cases e
      exact .field hm rfl (hx.resolve_left hn)

theorem whereRelevant_exported {env : Env} {i : NamedInfo} {p : Pkg} (hi : i.pkg = some p)
    (hp : p.path ≠ env.pkgPath) {h : FieldHdr} (e : whereRelevant env (some i) h = .ok true) :
    h.name = b!"_" ∨ h.exported = true := by
  unfold whereRelevant at e
  split at e
  · simp at e
  · split at e
    · next hn => exact .inl hn
    · rcases isAccessible_usable e with hx | hx
      · exact .inr hx
      · obtain ⟨q, hq, hqp⟩ := hx i rfl
        rw [hi] at hq
        cases hq
        exact absurd hqp hp

mutual
theorem whereItems_open (env : Env) (rs : RelSpace) (root : NamedInfo) (p : Pkg) (hi : root.pkg = some p)
    (hp : p.path ≠ env.pkgPath) (F : List Analysis.Field) :
    ∀ (fs : Fields) (items r : List WItem), (∀ f ∈ fs.toList, f ∈ F) → (∀ i ∈ items, ItemOpen env.pkgPath F i) →
      whereItems env rs (some root) items fs = .ok r → ∀ i ∈ r, ItemOpen env.pkgPath F i
  | .nil, items, r, _, h0, e => by
    rw [whereItems] at e; cases e; exact h0
  | .cons h t rest, items, r, hs, h0, e => by
    have hr : ∀ f ∈ rest.toList, f ∈ F := fun f hf => hs f (List.mem_cons_of_mem _ hf)
    have hm : (h, t) ∈ F := hs _ List.mem_cons_self
    simp only [whereItems, Res.bind_eq_ok] at e
    obtain ⟨rel, hrel, e⟩ := e
    split at e
    · next hh =>
      have hx := whereRelevant_exported hi hp (hh ▸ hrel)
      simp only [Res.bind_eq_ok] at e
      obtain ⟨bs, hb, e⟩ := e
      have hbs : ∀ i ∈ bs, ItemOpen env.pkgPath F i := by
        unfold whereBool at hb
        repeat' split at hb
        all_goals first
          | (cases hb; done)
          | (cases hb; intro i hi; simp at hi; try (rw [hi]; exact .bool))
      split at e
      · simp only [Res.bind_eq_ok] at e
        obtain ⟨sub, hsub, e⟩ := e
        obtain ⟨gs, h1, h2⟩ := whereNested_open env rs root p hi hp t sub hsub
        refine whereItems_open env rs root p hi hp F rest _ r hr ?_ e
        intro i hi'
        simp only [List.mem_append, List.mem_singleton] at hi'
        rcases hi' with (hi' | hi') | rfl
        · exact h0 i hi'
        · exact hbs i hi'
        · exact .nested hm rfl hx h1 h2
      · simp only [Res.bind_eq_ok] at e
        obtain ⟨o, ho, e⟩ := e
        refine whereItems_open env rs root p hi hp F rest _ r hr ?_ e
        intro i hi'
        simp only [List.mem_append, Option.mem_toList] at hi'
        rcases hi' with (hi' | hi') | hi'
        · exact h0 i hi'
        · exact hbs i hi'
        · exact whereLeaf_open hm hx (Option.mem_def.1 hi' ▸ ho)
    · exact whereItems_open env rs root p hi hp F rest _ r hr h0 e
theorem whereNested_open (env : Env) (rs : RelSpace) (root : NamedInfo) (p : Pkg) (hi : root.pkg = some p)
    (hp : p.path ≠ env.pkgPath) : ∀ (t : Ty) (r : List WItem), whereNested env rs (some root) t = .ok r →
      ∃ fs, structOf t = some fs ∧ ∀ i ∈ r, ItemOpen env.pkgPath fs.toList i
  | .struct fs, r, e => by
    rw [whereNested] at e
    exact ⟨fs, rfl, whereItems_open env rs root p hi hp fs.toList fs [] r (fun _ h => h) (by simp) e⟩
  | .named _ (.struct fs), r, e => by
    rw [whereNested] at e
    exact ⟨fs, rfl, whereItems_open env rs root p hi hp fs.toList fs [] r (fun _ h => h) (by simp) e⟩
  | .named _ (.named ..), r, e => by simp [whereNested] at e
  | .named _ (.basic ..), r, e => by simp [whereNested] at e
  | .named _ (.ptr ..), r, e => by simp [whereNested] at e
  | .named _ (.slice ..), r, e => by simp [whereNested] at e
  | .named _ (.array ..), r, e => by simp [whereNested] at e
  | .named _ (.map ..), r, e => by simp [whereNested] at e
  | .named _ (.chan), r, e => by simp [whereNested] at e
  | .named _ (.func ..), r, e => by simp [whereNested] at e
  | .named _ (.iface ..), r, e => by simp [whereNested] at e
  | .basic .., r, e => by simp [whereNested] at e
  | .ptr .., r, e => by simp [whereNested] at e
  | .slice .., r, e => by simp [whereNested] at e
  | .array .., r, e => by simp [whereNested] at e
  | .map .., r, e => by simp [whereNested] at e
  | .chan, r, e => by simp [whereNested] at e
  | .func .., r, e => by simp [whereNested] at e
  | .iface .., r, e => by simp [whereNested] at e
end

/-- **C110** If the where struct is of a type of another package, all its conditions come from exported fields, at every
depth, and the bounds of ranges from fields that are exported or whose struct is not of another package. -/
theorem C110_imported (env : Env) (s s' : St) (h : FieldHdr) (t : Ty) (i : NamedInfo) (p : Pkg) (fs : Fields)
    (ht : t = .named i (.struct fs)) (hi : i.pkg = some p) (hp : p.path ≠ env.pkgPath)
    (e : analyzeWhere env s h t = .ok s') :
    ∃ w, s'.q.wher = some w ∧ w.fieldName = h.name ∧ ∀ x ∈ w.items, ItemOpen env.pkgPath fs.toList x := by
  subst ht
  simp only [analyzeWhere, getStruct, Res.bind_eq_ok, Res.map_eq_ok] at e
  obtain ⟨_, _, items, h1, rfl⟩ := e
  exact ⟨_, rfl, rfl, whereItems_open env s.rs i p hi hp fs.toList fs [] items (fun _ h => h) (by simp) h1⟩

/-- A select of users with a where field of the given type. -/
def whereTyped (t : Ty) : List Analysis.Field := [relFld (.slice userTy), ({ name := b!"Where" }, t)]

/-- **C110** A where struct of another package: its exported field is used, its unexported one is passed over, while that
of a struct of the same package is used. -/
theorem C110_example_imported : b!"m" ≠ env0.pkgPath ∧
    (∃ q t c, pipeline env0 shopCat b!"SelectUsers" (whereTyped (placeTy b!"m" true)) = some (q, t, some c) ∧
      whereArgs q t = [path [b!"Where", b!"Id"]]) ∧
    (∃ q t c, pipeline env0 shopCat b!"SelectUsers" (whereTyped (placeTy b!"m" false)) = some (q, t, some c) ∧
      whereArgs q t = []) ∧
    (∃ q t c, pipeline env0 shopCat b!"SelectUsers" (whereTyped (placeTy env0.pkgPath false)) = some (q, t, some c) ∧
      whereArgs q t = [path [b!"Where", b!"id"]]) := by
  refine ⟨by decide, ?_, ?_, ?_⟩
  · obtain ⟨q, t, c, h1, h2⟩ := query_of (env := env0) (cat := shopCat) (n := b!"SelectUsers") (fs := whereTyped (placeTy b!"m" true))
      (P := fun q t _ => decide (whereArgs q t = [path [b!"Where", b!"Id"]])) (by decide +kernel)
    exact ⟨q, t, c, h1, of_decide_eq_true h2⟩
  · obtain ⟨q, t, c, h1, h2⟩ := query_of (env := env0) (cat := shopCat) (n := b!"SelectUsers") (fs := whereTyped (placeTy b!"m" false))
      (P := fun q t _ => decide (whereArgs q t = [])) (by decide +kernel)
    exact ⟨q, t, c, h1, of_decide_eq_true h2⟩
  · obtain ⟨q, t, c, h1, h2⟩ := query_of (env := env0) (cat := shopCat) (n := b!"SelectUsers") (fs := whereTyped (placeTy env0.pkgPath false))
      (P := fun q t _ => decide (whereArgs q t = [path [b!"Where", b!"id"]])) (by decide +kernel)
    exact ⟨q, t, c, h1, of_decide_eq_true h2⟩

end Verif.Generator.Scoped
