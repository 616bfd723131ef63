import Verif.Generator.GoDecls
import Verif.Generator.PropsFilterGen2
import Verif.Generator.PropsQuals2

/- C107: the declarations of a generated file do not clash. -/
namespace Verif.Generator.Scoped
open Verif.Analysis Verif.Postgres Verif.Generator.Print

local infixr:65 " +++ " => List.append (α := Char)

/-! ### The text -/

theorem declares_nil (self : Bytes) : Declares self [] [] := ⟨[], rfl, rfl⟩

theorem declares_cons {self : Bytes} {d : TopDecl} {ds : List TopDecl} {x y : Bytes}
    (hx : ∃ b, x = d.head self +++ b) (hy : Declares self ds y) : Declares self (d :: ds) (x +++ y) := by
  obtain ⟨b, rfl⟩ := hx
  obtain ⟨bs, h, rfl⟩ := hy
  exact ⟨b :: bs, by simp [h], by simp⟩

theorem method_text (conf : FilterConf) (fs : FilterStruct) (m : Method) :
    ∃ b, methodText conf fs m = (TopDecl.method fs.typeName m.name).head b!"f" +++ b := by
  cases m with
  | init =>
    refine ⟨b!") {\n" +++ (line (b!"f." +++ fs.constructor.1 +++ (if fs.constructor.2 then b!".InitV2(_" else b!".Init(_") +++
      fs.typeName +++ b!"_colmap, " +++
      (if fs.textSearch.isSome then rawText (textSearchColumn conf fs) else stringLit []) +++ b!")") +++ line b!"}"), ?_⟩
    simp [methodText, TopDecl.head, Method.name, line]
  | col n c ty =>
    simp only [methodText, TopDecl.head, Method.name, line]
    exact ⟨_, by simp only [List.append_eq, List.append_assoc]; rfl⟩
  | bool n =>
    simp only [methodText, TopDecl.head, Method.name, line]
    exact ⟨_, by simp only [List.append_eq, List.append_assoc]; rfl⟩

theorem methods_text (conf : FilterConf) (fs : FilterStruct) : ∀ ms : List Method,
    Declares b!"f" (ms.map fun m => .method fs.typeName m.name) (ms.flatMap (methodText conf fs))
  | [] => declares_nil _
  | m :: ms => declares_cons (method_text conf fs m) (methods_text conf fs ms)

/-- **C107** The text of a file is the header followed by the declarations. -/
theorem C107_text (pkgPath pkgName : Bytes) (conf : PrintConf) (fconf : FilterConf) (ts : List Source) :
    let s := (writeFile pkgPath conf.methodConf fconf ts).1
    fileText pkgPath pkgName conf fconf ts =
      line b!"// DO NOT EDIT. This file was generated by \"github.com/frk/gosql\"." +++
        line (b!"package " +++ pkgName) +++ importText s +++ ts.flatMap (sourceText pkgPath conf fconf s) ∧
    ∀ x ∈ ts, Declares (selfOf x) (declsOf pkgPath conf fconf s x) (sourceText pkgPath conf fconf s x) := by
  intro s
  refine ⟨?_, ?_⟩
  · simp only [fileText]
    congr 4
  · intro x _
    cases x with
    | query q t c =>
      rw [← List.append_nil (sourceText ..)]
      refine declares_cons ?_ (declares_nil _)
      simp only [sourceText, queryText, TopDecl.head, selfOf, line]
      exact ⟨_, by simp only [List.append_eq, List.append_assoc]; rfl⟩
    | filter fs t =>
      refine declares_cons ?_ (methods_text fconf fs _)
      simp only [mapText, TopDecl.head, line, mapVar]
      exact ⟨_, by simp only [List.append_eq, List.append_assoc]; rfl⟩

/-! ### Clashes -/

/-- The names of the methods of a filter type: C63_methods. -/
theorem declsOf_filter (pkg : Bytes) (conf : PrintConf) (fconf : FilterConf) (s : List Imp) (fs : FilterStruct)
    (t : TargetInfo) :
    declsOf pkg conf fconf s (.filter fs t) =
      .var (mapVar fs.typeName) ::
        (b!"Init" :: (methodFields t).map (fun f => methodName f.field) ++ [b!"And", b!"Or"]).map
          (.method fs.typeName) := by
  rw [← C63_methods pkg fconf s fs t]
  simp [declsOf, List.map_map, Function.comp_def]

/-- What has to hold of a target. -/
def Fits (names : List Bytes) (fields : Bytes → List Bytes) (conf : PrintConf) : Source → Prop
  | .query q _ _ => conf.method ∉ fields q.typeName
  | .filter fs t =>
    mapVar fs.typeName ∉ names ∧ ((methodFields t).map fun f => methodName f.field).Nodup ∧
    (∀ n ∈ [b!"Init", b!"And", b!"Or"], n ∉ fields fs.typeName) ∧
    ∀ f ∈ methodFields t, methodName f.field ∉ [b!"Init", b!"And", b!"Or"] ∧ methodName f.field ∉ fields fs.typeName

theorem mapVar_inj {a b : Bytes} (h : mapVar a = mapVar b) : a = b := by
  simp only [mapVar, List.cons_append, List.nil_append, List.cons.injEq, true_and] at h
  exact List.append_cancel_right h

theorem typeOf_mem {pkg : Bytes} {conf : PrintConf} {fconf : FilterConf} {s : List Imp} {x : Source} {d : TopDecl}
    (h : d ∈ declsOf pkg conf fconf s x) :
    d = .var (mapVar (typeOf x)) ∨ ∃ n, d = .method (typeOf x) n := by
  cases x with
  | query q t c => simp only [declsOf, List.mem_singleton] at h; exact .inr ⟨_, h⟩
  | filter fs t =>
    simp only [declsOf, List.mem_cons, List.mem_map] at h
    rcases h with h | ⟨m, _, h⟩
    · exact .inl h
    · exact .inr ⟨_, h.symm⟩

theorem method_nodup (t : Bytes) (l : List Bytes) : (l.map (TopDecl.method t)).Nodup ↔ l.Nodup := by
  simp only [List.Nodup, List.pairwise_map]
  constructor <;> intro h <;> exact h.imp (by intro a b; simp)

theorem fits_nodup {names : List Bytes} {fields : Bytes → List Bytes} {pkg : Bytes} {conf : PrintConf}
    {fconf : FilterConf} {s : List Imp} {x : Source} :
    Coexist names fields (declsOf pkg conf fconf s x) ↔ Fits names fields conf x := by
  cases x with
  | query q t c =>
    constructor
    · intro h; exact h.fields _ _ (by simp [declsOf])
    · intro h
      exact ⟨by simp [declsOf], by simp [declsOf], by
        intro a n hm; simp only [declsOf, List.mem_singleton, TopDecl.method.injEq] at hm; rw [hm.1, hm.2]; exact h⟩
  | filter fs t =>
    rw [declsOf_filter]
    generalize hl : (methodFields t).map (fun f => methodName f.field) = l
    have hall : ∀ P : Bytes → Prop, (∀ f ∈ methodFields t, P (methodName f.field)) ↔ ∀ n ∈ l, P n := by
      intro P; rw [← hl]; simp
    have hf : Fits names fields conf (.filter fs t) ↔ mapVar fs.typeName ∉ names ∧ l.Nodup ∧
        (∀ n ∈ [b!"Init", b!"And", b!"Or"], n ∉ fields fs.typeName) ∧
        ∀ n ∈ l, n ∉ [b!"Init", b!"And", b!"Or"] ∧ n ∉ fields fs.typeName := by
      simp only [Fits, hl, hall fun n => n ∉ [b!"Init", b!"And", b!"Or"] ∧ n ∉ fields fs.typeName]
    rw [hf]
    have hn : (b!"Init" :: l ++ [b!"And", b!"Or"]).Nodup ↔ l.Nodup ∧ ∀ n ∈ l, n ∉ [b!"Init", b!"And", b!"Or"] := by
      rw [List.cons_append, List.nodup_cons, List.nodup_append]
      simp only [List.mem_append, List.mem_cons, List.not_mem_nil, or_false]
      constructor
      · grind
      · rintro ⟨h1, h2⟩
        refine ⟨?_, h1, by decide, ?_⟩
        · rintro (h | h | h)
          · exact h2 _ h (.inl rfl)
          · cases h
          · cases h
        · intro a ha b hb; grind
    constructor
    · intro h
      have h1 := (List.nodup_cons.1 h.once).2
      rw [method_nodup, hn] at h1
      refine ⟨h.vars _ (List.mem_cons_self ..), h1.1, ?_, ?_⟩
      · intro n hm
        exact h.fields fs.typeName n (List.mem_cons_of_mem _ (List.mem_map_of_mem (by
          simp only [List.mem_cons, List.not_mem_nil, or_false] at hm
          simp only [List.cons_append, List.mem_cons, List.mem_append, List.not_mem_nil, or_false]; grind)))
      · intro n hm
        exact ⟨h1.2 n hm, h.fields fs.typeName n (List.mem_cons_of_mem _ (List.mem_map_of_mem (by
          simp only [List.cons_append, List.mem_cons, List.mem_append]; exact .inr (.inl hm))))⟩
    · rintro ⟨h1, h2, h3, h4⟩
      refine ⟨?_, ?_, ?_⟩
      · rw [List.nodup_cons, method_nodup, hn]
        exact ⟨by simp, h2, fun n hm => (h4 n hm).1⟩
      · intro n hm
        simp only [List.mem_cons, TopDecl.var.injEq, List.mem_map, reduceCtorEq, and_false, exists_false, or_false] at hm
        rw [hm]; exact h1
      · intro a n hm
        simp only [List.mem_cons, reduceCtorEq, List.mem_map, TopDecl.method.injEq, false_or, List.cons_append,
          List.mem_append, List.not_mem_nil, or_false] at hm
        obtain ⟨m, hm, rfl, rfl⟩ := hm
        rcases hm with rfl | hm | rfl | rfl
        · exact h3 _ (by simp)
        · exact (h4 _ hm).2
        · exact h3 _ (by simp)
        · exact h3 _ (by simp)

/-- **C107** The declarations for the targets of a package, which are types with different names, can stand together
exactly if the name of the query method is not that of a field of a query struct, and for every filter type the
methods for the columns have different names, no method has the name of a field, or `Init`, `And` or `Or`, and the
name of the column map is not taken. -/
theorem C107_coexist (names : List Bytes) (fields : Bytes → List Bytes) (pkg : Bytes) (conf : PrintConf)
    (fconf : FilterConf) (s : List Imp) (ts : List Source) (h : (ts.map typeOf).Nodup) :
    Coexist names fields (ts.flatMap (declsOf pkg conf fconf s)) ↔ ∀ x ∈ ts, Fits names fields conf x := by
  have hp : ts.Pairwise fun x y => typeOf x ≠ typeOf y := List.pairwise_map.1 h
  constructor
  · intro hc x hx
    refine (fits_nodup (pkg := pkg) (fconf := fconf) (s := s)).1 ⟨?_, ?_, ?_⟩
    · exact (List.pairwise_flatMap.1 hc.once).1 x hx
    · intro n hn; exact hc.vars n (List.mem_flatMap.2 ⟨x, hx, hn⟩)
    · intro a n hn; exact hc.fields a n (List.mem_flatMap.2 ⟨x, hx, hn⟩)
  · intro hf
    have hc := fun x hx => (fits_nodup (pkg := pkg) (fconf := fconf) (s := s)).2 (hf x hx)
    refine ⟨List.pairwise_flatMap.2 ⟨fun x hx => (hc x hx).once, hp.imp ?_⟩, ?_, ?_⟩
    · intro x y hxy d hd e he hde
      subst hde
      rcases typeOf_mem hd with h1 | ⟨n, h1⟩ <;> rcases typeOf_mem he with h2 | ⟨m, h2⟩ <;> rw [h1] at h2
      · exact hxy (mapVar_inj (TopDecl.var.inj h2))
      · cases h2
      · cases h2
      · exact hxy (TopDecl.method.inj h2).1
    · intro n hn
      obtain ⟨x, hx, hn⟩ := List.mem_flatMap.1 hn
      exact (hc x hx).vars n hn
    · intro a n hn
      obtain ⟨x, hx, hn⟩ := List.mem_flatMap.1 hn
      exact (hc x hx).fields a n hn

end Verif.Generator.Scoped
