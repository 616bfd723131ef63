import Verif.Config.PropsKeys
import Verif.Typesutil.PropsCases
import Verif.Generator.PropsQuals

/- C71: the type of the argument of the generated methods. -/
namespace Verif.Config
open Verif.Analysis Verif.Typesutil

def connText : Bytes := b!"github.com/frk/gosql.Conn"

/-- The package that a path loads, and the type that it declares under a name. -/
def Declares (ld : Load) (path name : Bytes) (p : Package) (n : Named) : Prop :=
  ∃ ps, ld path = some (p :: ps) ∧ p.types.find? (fun s => s.name = name) = some ⟨name, some n⟩

/-- **C71** A type is accepted exactly if it is gosql.Conn by name or a declared type with the methods of
gosql.Conn; in the latter case the name of its package is that which the package declares. -/
theorem C71_accepted (ld : Load) (t t' : GoType) : validArgType ld t = .ok t' ↔
    (t.text = connText ∧ t' = t) ∨
    (t.text ≠ connText ∧ ∃ p n, Declares ld t.pkgPath t.name p n ∧ implementsConn n = .ok true ∧
      t' = { t with pkgName := p.name }) := by
  unfold validArgType
  by_cases ht : t.text = connText
  · rw [if_neg (by simpa [connText] using ht)]
    simp [ht, eq_comm]
  · rw [if_pos (by simpa [connText] using ht)]
    simp only [ht, false_and, false_or, not_false_eq_true, true_and, ne_eq]
    unfold checkArgType Declares
    cases hl : ld t.pkgPath with
    | none => simp
    | some ps =>
      cases ps with
      | nil => simp
      | cons p ps =>
        simp only [Option.some.injEq, List.cons.injEq]
        cases hf : p.types.find? (fun s => s.name = t.name) with
        | none =>
          simp only [reduceCtorEq, false_iff]
          rintro ⟨p', n, ⟨_, ⟨rfl, _⟩, h⟩, _⟩
          rw [hf] at h; cases h
        | some s =>
          have hs : s.name = t.name := by simpa using List.find?_some hf
          simp only
          cases hn : s.named with
          | none =>
            simp only [reduceCtorEq, false_iff]
            rintro ⟨p', n, ⟨_, ⟨rfl, _⟩, h⟩, _⟩
            rw [hf] at h
            cases h
            cases hn
          | some n =>
            simp only
            obtain ⟨b, hb⟩ := C70_conn_total n
            rw [hb]
            have hd : p.types.find? (fun s => s.name = t.name) = some ⟨t.name, some n⟩ := by
              rw [hf, ← hs, ← hn]
            constructor
            · intro h
              cases b with
              | false => cases h
              | true => exact ⟨p, n, ⟨ps, ⟨rfl, rfl⟩, hd⟩, hb, (Res.ok.inj h).symm⟩
            · rintro ⟨p', n', ⟨_, ⟨rfl, _⟩, h⟩, hc, rfl⟩
              rw [hd] at h
              simp only [Option.some.injEq, TypeSpec.mk.injEq, true_and] at h
              subst h
              rw [hb] at hc
              rw [Res.ok.inj hc]

/-- **C71** It never panics, if every path loads a package or gives an error. -/
theorem C71_total_partial (ld : Load) (t : GoType) (h : ld t.pkgPath ≠ some []) : validArgType ld t ≠ .panic := by
  unfold validArgType checkArgType
  split
  · cases hl : ld t.pkgPath with
    | none => simp
    | some ps =>
      cases ps with
      | nil => exact absurd hl h
      | cons p ps =>
        simp only
        cases p.types.find? (fun s => s.name = t.name) with
        | none => simp
        | some s =>
          simp only
          cases s.named with
          | none => simp
          | some n =>
            obtain ⟨b, hb⟩ := C70_conn_total n
            simp only [hb]
            cases b <;> simp
  · simp

/-- The methods that can be called on a variable of the type, or of the pointer type: none through a pointer to
an interface. -/
def callable (n : Named) (ptr : Bool) : List Method := if ptr && n.iface.isSome then [] else n.methodSet

/-- **C71** The generated methods can make their calls on an argument of an accepted type, unless it is a
pointer to an interface. -/
theorem C71_callable_partial (ld : Load) (t t' : GoType) (h : validArgType ld t = .ok t')
    (ht : t.text ≠ connText) :
    ∃ p n, Declares ld t.pkgPath t.name p n ∧ ((t.isPtr && n.iface.isSome) = false →
      Implements (callable n t.isPtr) conn) := by
  rcases (C71_accepted ld t t').1 h with ⟨h', _⟩ | ⟨_, p, n, hd, hc, _⟩
  · exact absurd h' ht
  · exact ⟨p, n, hd, fun hp => by rw [callable, if_neg (by simp [hp])]; exact C70_conn_sound hc⟩

/-- **C71** What is asked for in a generated file, the path and name of the package, is right: it is the name
that the package declares. -/
theorem C71_name (ld : Load) (c c' : Config) (h : validate ld c = .ok c')
    (hs : c.argType.text ≠ connText) :
    ∃ p ps, ld c'.argType.pkgPath = some (p :: ps) ∧ c'.argType.pkgName = p.name := by
  obtain ⟨_, _, _, _, t, ht, rfl, _⟩ := (C50_valid ld c c').1 h
  rcases (C71_accepted ld _ _).1 ht with ⟨h', _⟩ | ⟨_, p, n, ⟨ps, hl, _⟩, _, rfl⟩
  · exact absurd h' hs
  · exact ⟨p, ps, hl, rfl⟩

theorem foldR_pkgName {fs : List (Bytes × Bytes)} {file : Option Json} {c : Config} (h : load fs file = .ok c) :
    c.argType.pkgName = b!"gosql" := by
  have key1 : ∀ (t t' : GoType) (v : Bytes), setGoType t v = .ok t' → t'.pkgName = t.pkgName := by
    intro t t' v h
    unfold setGoType at h
    split at h
    · cases h; rfl
    · split at h
      · cases h
      · simp only [Res.ok.injEq] at h
        subst h
        unfold withPkg
        split <;> rfl
  have key2 : ∀ (t t' : GoType) (j : Json), jsonGoType t j = .ok t' → t'.pkgName = t.pkgName := by
    intro t t' j h
    unfold jsonGoType at h
    split at h
    · cases h; rfl
    · cases j with
      | null => cases h; rfl
      | str s => exact key1 _ _ _ h
      | _ => cases h
  have f1 : ∀ (vs : List Bytes) (t t' : GoType), foldR setGoType t vs = .ok t' → t'.pkgName = t.pkgName := by
    intro vs
    induction vs with
    | nil => intro t t' h; cases h; rfl
    | cons v vs ih =>
      intro t t' h
      simp only [foldR, Res.bind_eq_ok] at h
      obtain ⟨t1, h1, h2⟩ := h
      rw [ih _ _ h2, key1 _ _ _ h1]
  have f2 : ∀ (vs : List Json) (t t' : GoType), foldR jsonGoType t vs = .ok t' → t'.pkgName = t.pkgName := by
    intro vs
    induction vs with
    | nil => intro t t' h; cases h; rfl
    | cons v vs ih =>
      intro t t' h
      simp only [foldR, Res.bind_eq_ok] at h
      obtain ⟨t1, h1, h2⟩ := h
      rw [ih _ _ h2, key2 _ _ _ h1]
  obtain ⟨o, h1, h2⟩ : ∃ o : GoType, foldR setGoType defaultConfig.argType (flagValues .argType fs) = .ok o ∧
    foldR jsonGoType o (fileValues .argType file) = .ok c.argType := C50_option h .argType
  rw [f2 _ _ _ h2, f1 _ _ _ h1]
  rfl

/-- **C71** So the import of the argument's package has the declared name in every loaded and validated
configuration. -/
theorem C71_import (ld : Load) {fs : List (Bytes × Bytes)} {file : Option Json} {c c' : Config}
    (hl : load fs file = .ok c) (h : validate ld c = .ok c') :
    (c.argType.text = connText ∧ c'.argType.pkgName = b!"gosql") ∨
    ∃ p ps, ld c'.argType.pkgPath = some (p :: ps) ∧ c'.argType.pkgName = p.name := by
  by_cases hs : c.argType.text = connText
  · left
    obtain ⟨_, _, _, _, t, ht, rfl, _⟩ := (C50_valid ld c c').1 h
    rcases (C71_accepted ld _ _).1 ht with ⟨_, rfl⟩ | ⟨h', _⟩
    · have hn := foldR_pkgName hl
      exact ⟨hs, hn⟩
    · exact absurd hs h'
  · exact .inr (C71_name ld c c' h hs)

/-- Packages for the examples. -/
def demoLoad : Load := fun p =>
  if p = b!"database/sql" then some [⟨b!"sql", [⟨b!"Tx", some sqlDB⟩, ⟨b!"DB", some sqlDB⟩]⟩]
  else if p = b!"x/go-db" then some [⟨b!"db",
    [⟨b!"Conn", some { iface := some (ofIface Typesutil.conn) }⟩, ⟨b!"Alias", none⟩,
     ⟨b!"Wrapped", some { promoted := ofIface Typesutil.conn }⟩]⟩]
  else if p = b!"./..." then some []
  else none

def tried (v : Bytes) : R GoType := (setGoType defaultConfig.argType v).bind (validArgType demoLoad)

/-- The theorems are not vacuous. -/
theorem C71_example :
    tried b!"*database/sql.DB" =
      .ok { name := b!"DB", pkgPath := b!"database/sql", pkgName := b!"sql", isPtr := true, isSet := true } ∧
    tried b!"x/go-db.Conn" =
      .ok { name := b!"Conn", pkgPath := b!"x/go-db", pkgName := b!"db", isSet := true } ∧
    tried b!"database/sql.Rows" = .err .argUnknown ∧ tried b!"y.T" = .err .argLoad := by decide +kernel

/-- **C71** A pointer to an interface is accepted; nothing can be called on it. -/
theorem C71_not_callable : (tried b!"*x/go-db.Conn").map GoType.isPtr = .ok true ∧
    callable { iface := some (ofIface Typesutil.conn) } true = [] := by decide +kernel

/-- **C71** An alias of a connection type is refused, and a struct that embeds one. -/
theorem C71_not_all : tried b!"x/go-db.Alias" = .err .argKind ∧ tried b!"x/go-db.Wrapped" = .err .argMethods := by
  decide +kernel

/-- **C71** A path that matches no package makes the check panic. -/
theorem C71_not_total : tried b!"./....T" = .panic := by decide +kernel

end Verif.Config
