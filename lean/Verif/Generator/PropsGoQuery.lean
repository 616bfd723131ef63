import Verif.Generator.PropsGoFields2

/- C110: the fields of the query struct that a generated method refers to. -/
namespace Verif.Generator.Scoped
open Verif.Analysis Verif.Postgres

/-- The Go specification, "Selectors": the type of `q.A.B`, where `F` are the fields of the struct that q points to. -/
inductive HasTy (F : List Analysis.Field) : GoExpr → Ty → Prop
  | field {h : FieldHdr} {t : Ty} : (h, t) ∈ F → h.name ≠ b!"_" → HasTy F (.sel (.ident b!"q") h.name) t
  | sel {x : GoExpr} {s : Ty} {fs : Fields} {h : FieldHdr} {t : Ty} : HasTy F x s → structOf s = some fs →
      (h, t) ∈ fs.toList → h.name ≠ b!"_" → HasTy F (.sel x h.name) t

/-- Values of the type have elements.  (No basic type of Go is of the kind of a slice or an array.) -/
def Indexed (t : Ty) : Prop :=
  (∃ e, bare t = .slice e) ∨ (∃ n e, bare t = .array n e) ∨ ∃ k n, bare t = .basic k n ∧ (k = .slice ∨ k = .array)

/-- The bound of a range is one of the fields. -/
def BoundIn (F : List Analysis.Field) (b : Bound) : Prop :=
  ∀ n ti, b = .field n ti → ∃ f ∈ F, f.1.name = n ∧ n ≠ b!"_"

/-- The condition comes from the fields; only a nested list of conditions may be that of a blank field. -/
inductive ItemIn : List Analysis.Field → WItem → Prop
  | bool {F : List Analysis.Field} {b : Bool} : ItemIn F (.bool b)
  | column {F : List Analysis.Field} {c : ColCond} : ItemIn F (.column c)
  | field {F : List Analysis.Field} {h : FieldHdr} {t : Ty} {f : FieldCond} : (h, t) ∈ F → h.name ≠ b!"_" →
      f.name = h.name → (predIs Pred.isArray f.pred = true → Indexed t) → ItemIn F (.field f)
  | between {F : List Analysis.Field} {h : FieldHdr} {t : Ty} {fs : Fields} {b : BetweenCond} : (h, t) ∈ F →
      h.name ≠ b!"_" → b.name = h.name → structOf t = some fs → BoundIn fs.toList b.lower → BoundIn fs.toList b.upper →
      ItemIn F (.between b)
  | nested {F : List Analysis.Field} {h : FieldHdr} {t : Ty} {fs : Fields} {n : Bytes} {l : List WItem} : (h, t) ∈ F →
      n = h.name → structOf t = some fs → (∀ i ∈ l, ItemIn fs.toList i) → ItemIn F (.nested n l)

theorem structOf_getStruct {t : Ty} {n : Option NamedInfo} {fs : Fields} (h : getStruct t = some (n, fs)) :
    structOf t = some fs := by
  unfold getStruct at h
  split at h <;> simp_all [structOf, bare]

theorem isAccessible_name {p nm : Bytes} {ex : Bool} {n : Option NamedInfo} (h : isAccessible p nm ex n = .ok true) :
    nm ≠ b!"_" := by
  intro he
  simp [isAccessible, he] at h

theorem typeInfo_indexed (p : Bytes) : ∀ (t : Ty) (n : Option NamedInfo) (r : TypeInfo × Ty), typeInfo p n t = .ok r →
    r.1.isSequence = true → Indexed t
  | .named i u, n, r, h, hs => by
    rw [typeInfo] at h
    split at h
    · cases h
    · have := typeInfo_indexed p u _ r h hs
      simpa [Indexed, bare] using this
  | .slice e, _, _, _, _ => .inl ⟨e, rfl⟩
  | .array k e, _, _, _, _ => .inr (.inl ⟨k, e, rfl⟩)
  | .basic k nm, n, r, h, hs => by
    cases h
    refine .inr (.inr ⟨k, nm, rfl, ?_⟩)
    simp only [TypeInfo.isSequence, TypeInfo.kind, TypeInfo.hdr, Bool.or_eq_true] at hs
    cases n <;> exact hs.imp of_decide_eq_true of_decide_eq_true
  | .map k e, n, r, h, hs => by
    simp only [typeInfo, Res.bind_eq_ok, Res.map_eq_ok] at h
    obtain ⟨_, _, _, _, rfl⟩ := h
    cases n <;> simp [TypeInfo.isSequence, TypeInfo.kind, TypeInfo.hdr, namedHdr] at hs
  | .ptr e, n, r, h, hs => by
    simp only [typeInfo, Res.map_eq_ok] at h
    obtain ⟨_, _, rfl⟩ := h
    cases n <;> simp [TypeInfo.isSequence, TypeInfo.kind, TypeInfo.hdr, namedHdr] at hs
  | .iface _ _, n, r, h, hs => by
    cases h; cases n <;> simp [TypeInfo.isSequence, TypeInfo.kind, TypeInfo.hdr, namedHdr] at hs
  | .chan, n, r, h, hs => by
    cases h; cases n <;> simp [TypeInfo.isSequence, TypeInfo.kind, TypeInfo.hdr, namedHdr] at hs
  | .func _ _, n, r, h, hs => by
    cases h; cases n <;> simp [TypeInfo.isSequence, TypeInfo.kind, TypeInfo.hdr, namedHdr] at hs
  | .struct _, n, r, h, hs => by
    cases h; cases n <;> simp [TypeInfo.isSequence, TypeInfo.kind, TypeInfo.hdr, namedHdr] at hs

theorem betweenField_in {env : Env} {rs : RelSpace} {n : Option NamedInfo} {h : FieldHdr} {t : Ty} {b : Bound}
    {o : Option Bool} (e : betweenField env rs n h t = .ok (some (b, o))) : BoundIn [(h, t)] b := by
  unfold betweenField at e
  simp only [Res.bind_eq_ok] at e
  obtain ⟨d, _, e⟩ := e
  split at e
  · simp only [Res.map_eq_ok] at e
    obtain ⟨_, _, e⟩ := e
    simp only [Option.some.injEq, Prod.mk.injEq] at e
    rw [← e.1]; intro m ti he; cases he
  · simp only [Res.bind_eq_ok] at e
    obtain ⟨a, ha, e⟩ := e
    split at e
    · next hh =>
      simp only [Res.map_eq_ok] at e
      obtain ⟨_, _, e⟩ := e
      simp only [Option.some.injEq, Prod.mk.injEq] at e
      rw [← e.1]; intro m ti he; cases he
      exact ⟨_, List.mem_cons_self, rfl, isAccessible_name (hh ▸ ha)⟩
    · simp at e

theorem BoundIn.mono {F G : List Analysis.Field} {b : Bound} (hs : ∀ f ∈ F, f ∈ G) (h : BoundIn F b) : BoundIn G b := by
  intro n ti e
  obtain ⟨f, hf, h⟩ := h n ti e
  exact ⟨f, hs f hf, h⟩

theorem betweenBounds_in {env : Env} {rs : RelSpace} {t : Ty} {l u : Bound}
    (e : betweenBounds env rs t = .ok (l, u)) :
    ∃ fs, structOf t = some fs ∧ BoundIn fs.toList l ∧ BoundIn fs.toList u := by
  unfold betweenBounds at e
  split at e
  · next n h1 t1 h2 t2 hg =>
    simp only [Res.bind_eq_ok] at e
    obtain ⟨b1, e1, b2, e2, e⟩ := e
    refine ⟨_, structOf_getStruct hg, ?_⟩
    have k1 : ∀ x o, b1 = some (x, o) → BoundIn [(h1, t1), (h2, t2)] x := fun x o hx =>
      (betweenField_in (hx ▸ e1)).mono (by simp)
    have k2 : ∀ x o, b2 = some (x, o) → BoundIn [(h1, t1), (h2, t2)] x := fun x o hx =>
      (betweenField_in (hx ▸ e2)).mono (by simp)
    show BoundIn [(h1, t1), (h2, t2)] l ∧ BoundIn [(h1, t1), (h2, t2)] u
    split at e
    · next l' u' hs =>
      cases e
      unfold setBound at hs
      grind
    · simp at e
  · simp at e

theorem whereLeaf_in {env : Env} {rs : RelSpace} {h : FieldHdr} {t : Ty} {F : List Analysis.Field} (hm : (h, t) ∈ F)
    {i : WItem} (e : whereLeaf env rs h t = .ok (some i)) : ItemIn F i := by
  unfold whereLeaf at e
  split at e
  · simp only [whereDirective, Res.bind_eq_ok] at e
    obtain ⟨d, _, e⟩ := e
    split at e
    · simp only [Res.bind_eq_ok, Res.map_eq_ok] at e
      obtain ⟨_, _, _, _, e⟩ := e
      cases e; exact .column
    · simp at e
  · next hn =>
    dsimp only at e
    split at e
    · simp only [whereBetween, Res.bind_eq_ok, Res.map_eq_ok] at e
      obtain ⟨_, _, b, hb, _, _, e⟩ := e
      cases e
      obtain ⟨fs, h1, h2, h3⟩ := betweenBounds_in hb
      exact .between hm hn rfl h1 h2 h3
    · simp only [whereField, Res.bind_eq_ok] at e
      obtain ⟨_, _, p, hp, _, _, _, _, _, _, _, h4, e⟩ := e
      cases e
      refine .field hm hn rfl fun ha => typeInfo_indexed _ _ _ _ hp ?_
      have h5 := failIf_ok h4
      rw [ha] at h5
      simpa using h5

mutual
theorem whereItems_in (env : Env) (rs : RelSpace) (root : Option NamedInfo) (F : List Analysis.Field) :
    ∀ (fs : Fields) (items r : List WItem), (∀ f ∈ fs.toList, f ∈ F) → (∀ i ∈ items, ItemIn F i) →
      whereItems env rs root items fs = .ok r → ∀ i ∈ r, ItemIn F i
  | .nil, items, r, _, hi, e => by
    rw [whereItems] at e; cases e; exact hi
  | .cons h t rest, items, r, hs, hi, e => by
    have hr : ∀ f ∈ rest.toList, f ∈ F := fun f hf => hs f (List.mem_cons_of_mem _ hf)
    have hm : (h, t) ∈ F := hs _ List.mem_cons_self
    simp only [whereItems, Res.bind_eq_ok] at e
    obtain ⟨rel, _, e⟩ := e
    split at e
    · simp only [Res.bind_eq_ok] at e
      obtain ⟨bs, hb, e⟩ := e
      have hbs : ∀ i ∈ bs, ItemIn F i := by
        unfold whereBool at hb
        repeat' split at hb
        all_goals first
          | (cases hb; done)
          | (cases hb; intro i hi; simp at hi; try (rw [hi]; exact .bool))
      split at e
      · simp only [Res.bind_eq_ok] at e
        obtain ⟨sub, hsub, e⟩ := e
        obtain ⟨gs, h1, h2⟩ := whereNested_in env rs root t sub hsub
        refine whereItems_in env rs root F rest _ r hr ?_ e
        intro i hi'
        simp only [List.mem_append, List.mem_singleton] at hi'
        rcases hi' with (hi' | hi') | rfl
        · exact hi i hi'
        · exact hbs i hi'
        · exact .nested hm rfl h1 h2
      · simp only [Res.bind_eq_ok] at e
        obtain ⟨o, ho, e⟩ := e
        refine whereItems_in env rs root F rest _ r hr ?_ e
        intro i hi'
        simp only [List.mem_append, Option.mem_toList] at hi'
        rcases hi' with (hi' | hi') | hi'
        · exact hi i hi'
        · exact hbs i hi'
        · exact whereLeaf_in hm (Option.mem_def.1 hi' ▸ ho)
    · exact whereItems_in env rs root F rest _ r hr hi e
theorem whereNested_in (env : Env) (rs : RelSpace) (root : Option NamedInfo) :
    ∀ (t : Ty) (r : List WItem), whereNested env rs root t = .ok r →
      ∃ fs, structOf t = some fs ∧ ∀ i ∈ r, ItemIn fs.toList i
  | .struct fs, r, e => by
    rw [whereNested] at e
    exact ⟨fs, rfl, whereItems_in env rs root fs.toList fs [] r (fun _ h => h) (by simp) e⟩
  | .named _ (.struct fs), r, e => by
    rw [whereNested] at e
    exact ⟨fs, rfl, whereItems_in env rs root fs.toList fs [] r (fun _ h => h) (by simp) e⟩
  | .named _ (.named ..), r, e => by simp [whereNested] at e
  | .named _ (.basic ..), r, e => by simp [whereNested] at e
  | .named _ (.ptr ..), r, e => by simp [whereNested] at e
  | .named _ (.slice ..), r, e => by simp [whereNested] at e
  | .named _ (.array ..), r, e => by simp [whereNested] at e
  | .named _ (.map ..), r, e => by simp [whereNested] at e
  | .named _ (.chan), r, e => by simp [whereNested] at e
  | .named _ (.func ..), r, e => by simp [whereNested] at e
  | .named _ (.iface ..), r, e => by simp [whereNested] at e
  | .basic .., r, e => by simp [whereNested] at e
  | .ptr .., r, e => by simp [whereNested] at e
  | .slice .., r, e => by simp [whereNested] at e
  | .array .., r, e => by simp [whereNested] at e
  | .map .., r, e => by simp [whereNested] at e
  | .chan, r, e => by simp [whereNested] at e
  | .func .., r, e => by simp [whereNested] at e
  | .iface .., r, e => by simp [whereNested] at e
end

end Verif.Generator.Scoped
