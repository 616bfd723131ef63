import Verif.Generator.GoTypes
import Verif.Analysis.PropsNamed

/- C109: the fields that the analysis finds are fields of the struct. -/
namespace Verif.Generator.Scoped
open Verif.Analysis Verif.Postgres

/-- The struct below all names and pointers. -/
def core : Ty → Option Fields
  | .struct fs => some fs
  | .named _ u => core u
  | .ptr e => core e
  | _ => none

theorem kind_bare {pkg : Bytes} : ∀ (t : Ty) {n : Option NamedInfo} {p : TypeInfo × Ty}, typeInfo pkg n t = .ok p →
    p.1.kind = .struct → ∀ {gs}, core t = some gs → bare t = .struct gs
  | .named i u, n, p, h, hk, gs, hc => by
    rw [typeInfo] at h
    split at h
    · cases h
    · exact kind_bare u h hk hc
  | .struct fs, n, p, h, hk, gs, hc => by simp only [core, Option.some.injEq] at hc; rw [hc]; rfl
  | .ptr e, n, p, h, hk, gs, hc => by
    rw [typeInfo, Res.map_eq_ok] at h
    obtain ⟨x, _, rfl⟩ := h
    have : (namedHdr pkg .ptr n).kind = .struct := hk
    cases n <;> simp [namedHdr] at this
  | .basic .., _, _, _, _, _, hc => by simp [core] at hc
  | .slice .., _, _, _, _, _, hc => by simp [core] at hc
  | .array .., _, _, _, _, _, hc => by simp [core] at hc
  | .map .., _, _, _, _, _, hc => by simp [core] at hc
  | .chan, _, _, _, _, _, hc => by simp [core] at hc
  | .func .., _, _, _, _, _, hc => by simp [core] at hc
  | .iface .., _, _, _, _, _, hc => by simp [core] at hc

/-- What the analysis makes of a field that it descends into. -/
theorem node_describes {pkg : Bytes} : ∀ (t : Ty) {n : Option NamedInfo} {p : TypeInfo × Ty}, typeInfo pkg n t = .ok p →
    p.1.is .struct = true → ∀ {gs}, core t = some gs → ∀ h mode, structOf t = some gs ∧ Describes (selNode h p.1 mode) t
  | .named i u, n, p, ht, hk, gs, hc, h, mode => by
    rw [typeInfo] at ht
    split at ht
    · cases ht
    · exact node_describes u ht hk hc h mode
  | .struct fs, n, p, ht, hk, gs, hc, h, mode => by
    simp only [core, Option.some.injEq] at hc
    subst hc
    rw [typeInfo] at ht
    cases ht
    refine ⟨rfl, ?_, ?_⟩
    · have : (namedHdr pkg .struct n).kind = .struct := by cases n <;> rfl
      simp [selNode, TypeInfo.kind, TypeInfo.hdr, this, bare]
    · intro i u hb; simp [bare] at hb
  | .ptr e, n, p, ht, hk, gs, hc, h, mode => by
    rw [typeInfo, Res.map_eq_ok] at ht
    obtain ⟨x, hx, rfl⟩ := ht
    have hp : (namedHdr pkg .ptr n).kind = .ptr := by cases n <;> rfl
    have hxk : x.1.kind = .struct := by
      have h1 : (TypeInfo.elem (namedHdr pkg .ptr n) x.1).kind = .ptr := hp
      simp only [TypeInfo.is, h1, Bool.or_eq_true, decide_eq_true_eq, Bool.and_eq_true] at hk
      rcases hk with hk | hk
      · cases hk
      · simpa [TypeInfo.elem?] using hk.2
    have hb := kind_bare e hx hxk hc
    refine ⟨by simp [structOf, bare, hb], ?_, ?_⟩
    · simp [selNode, TypeInfo.kind, TypeInfo.hdr, hp, bare]
    · intro i u he hu
      have he : e = .named i u := by simpa [bare] using he
      subst he
      have hu2 : u = .struct gs := by
        cases u with
        | named j v => cases hu
        | _ => simpa [bare] using hb
      subst hu2
      rw [typeInfo] at hx
      cases hi : i.pkg with
      | none => rw [hi] at hx; cases hx
      | some q =>
        rw [hi] at hx
        simp only [typeInfo] at hx
        cases hx
        refine ⟨?_, q, rfl, ?_⟩
        · simp only [selNode, TypeInfo.kind, TypeInfo.hdr, hp, if_pos, TypeInfo.elem?, Option.getD_some]
          rfl
        · simp only [selNode, TypeInfo.kind, TypeInfo.hdr, hp, if_pos, TypeInfo.elem?, Option.getD_some]
          simp [namedHdr, hi]
  | .basic .., _, _, _, _, _, hc, _, _ => by simp [core] at hc
  | .slice .., _, _, _, _, _, hc, _, _ => by simp [core] at hc
  | .array .., _, _, _, _, _, hc, _, _ => by simp [core] at hc
  | .map .., _, _, _, _, _, hc, _, _ => by simp [core] at hc
  | .chan, _, _, _, _, _, hc, _, _ => by simp [core] at hc
  | .func .., _, _, _, _, _, hc, _, _ => by simp [core] at hc
  | .iface .., _, _, _, _, _, hc, _, _ => by simp [core] at hc

theorem Leads.skip {h : FieldHdr} {t : Ty} {fs : Fields} {l : List SelNode} {n : Bytes} {T : Ty} (x : Leads fs l n T) :
    Leads (.cons h t fs) l n T := by
  cases x with
  | field hm hn => exact .field (List.mem_cons_of_mem _ hm) hn
  | step hm hn h1 h2 h3 h4 => exact .step (List.mem_cons_of_mem _ hm) hn h1 h2 h3 h4

/-- What is found below the selectors `sel`. -/
def Finds (fs : Fields) (sel : List SelNode) (f : FieldInfo) : Prop :=
  ∃ l T, f.selector = sel ++ l ∧ Leads fs l f.name T

theorem Finds.skip {h : FieldHdr} {t : Ty} {fs : Fields} {sel : List SelNode} {f : FieldInfo} (x : Finds fs sel f) :
    Finds (.cons h t fs) sel f := by
  obtain ⟨l, T, h1, h2⟩ := x
  exact ⟨l, T, h1, h2.skip⟩

mutual
theorem fieldsOf_finds (env : Env) (rs : RelSpace) : ∀ (fs : Fields) (pfx : Bytes) (sel : List SelNode) (imp : Bool)
    (l : List FieldInfo), fieldsOf env rs pfx sel imp fs = .ok l → ∀ f ∈ l, Finds fs sel f
  | .nil, pfx, sel, imp, l, h => by
    rw [fieldsOf] at h; cases h; simp
  | .cons hd t rest, pfx, sel, imp, l, h => by
    rw [fieldsOf] at h
    split at h
    · intro f hf; exact (fieldsOf_finds env rs rest _ _ _ _ h f hf).skip
    · next hig =>
      have hn : hd.name ≠ b!"_" := by
        intro e; apply hig; simp [ignoreField, e]
      rw [Res.bind_eq_ok] at h
      obtain ⟨p, hp, h⟩ := h
      split at h
      · next hd2 =>
        simp only [Res.bind_eq_ok, Res.map_eq_ok] at h
        obtain ⟨mode, _, l1, h1, l2, h2, rfl⟩ := h
        intro f hf
        rcases List.mem_append.1 hf with hf | hf
        · obtain ⟨gs, hc, hl⟩ := descend_finds env rs t _ _ _ _ h1
          obtain ⟨l, T, e1, e2⟩ := hl f hf
          have hs : p.1.is .struct = true := by
            simp only [isDescend, Bool.and_eq_true] at hd2; exact hd2.1
          obtain ⟨n1, n2⟩ := node_describes t hp hs hc hd mode
          refine ⟨selNode hd p.1 mode :: l, T, by rw [e1, List.append_assoc]; rfl, ?_⟩
          exact .step (h := hd) (t := t) List.mem_cons_self hn rfl n1 n2 e2
        · exact (fieldsOf_finds env rs rest _ _ _ _ h2 f hf).skip
      · simp only [Res.bind_eq_ok, Res.map_eq_ok] at h
        obtain ⟨g, hg, l2, h2, rfl⟩ := h
        intro f hf
        rcases List.mem_cons.1 hf with rfl | hf
        · simp only [leafField, Res.bind_eq_ok, Res.map_eq_ok] at hg
          obtain ⟨_, _, _, _, rfl⟩ := hg
          exact ⟨[], t, by simp, .field (h := hd) List.mem_cons_self hn⟩
        · exact (fieldsOf_finds env rs rest _ _ _ _ h2 f hf).skip
theorem descend_finds (env : Env) (rs : RelSpace) : ∀ (t : Ty) (pfx : Bytes) (sel : List SelNode) (imp : Bool)
    (l : List FieldInfo), descend env rs pfx sel imp t = .ok l → ∃ gs, core t = some gs ∧ ∀ f ∈ l, Finds gs sel f
  | .struct fs, pfx, sel, imp, l, h => by
    rw [descend] at h; exact ⟨fs, rfl, fieldsOf_finds env rs fs _ _ _ _ h⟩
  | .named _ u, pfx, sel, imp, l, h => by
    rw [descend] at h; rw [core]; exact descend_finds env rs u _ _ _ _ h
  | .ptr e, pfx, sel, imp, l, h => by
    rw [descend] at h; rw [core]; exact descend_finds env rs e _ _ _ _ h
  | .basic .., _, _, _, _, h => by simp [descend] at h
  | .slice .., _, _, _, _, h => by simp [descend] at h
  | .array .., _, _, _, _, h => by simp [descend] at h
  | .map .., _, _, _, _, h => by simp [descend] at h
  | .chan, _, _, _, _, h => by simp [descend] at h
  | .func .., _, _, _, _, h => by simp [descend] at h
  | .iface .., _, _, _, _, h => by simp [descend] at h
end

end Verif.Generator.Scoped
