import Verif.Generator.Tool
import Verif.Generator.PropsParams2
import Verif.Generator.PropsFilterGen2
import Verif.Command.PropsSearch
import Verif.Postgres.PropsCrash

/- C99: when the tool crashes. -/
namespace Verif.Generator
open Verif.Analysis Verif.Postgres

/-! ### The generator -/

theorem tableJoins_some : ∀ (ds : List JoinDir) (cs : List (List JoinCond)) (g : G), ds.length ≤ cs.length →
    (tableJoins g ds cs).isSome = true
  | [], _, _, _ => rfl
  | d :: ds, [], _, h => by simp at h
  | d :: ds, c :: cs, g, h => by
    rw [tableJoins, Option.isSome_map]
    exact tableJoins_some ds cs _ (by simpa using h)

/-- **C99** The generator ends for every query struct that is analysed and checked, except for an update or delete
with a From or Using struct that has no Relation directive. -/
theorem C99_generate {cat : Catalog} {q : Query} {t : TargetInfo} (h : Built cat q t) :
    generate q t = none ↔ joinsHaveRelation q = false := by
  have w := h.wf
  have h1 : ∃ js, buildJoins q t (targetValues q t).g = some js := by
    rw [← Option.isSome_iff_exists]
    unfold buildJoins
    cases hj : q.join with
    | none => rfl
    | some j => exact tableJoins_some _ _ _ (w.joinsLength j hj)
  obtain ⟨js, hjs⟩ := h1
  have h2 : ∃ x, buildWhere q t js.2 = some x := by
    rw [← Option.isSome_iff_exists]
    unfold buildWhere
    split
    · rfl
    · split
      · rename_i hl
        cases hw : q.wher with
        | none => rw [w.wherNone hw] at hl; simp at hl
        | some _ => rfl
      · rfl
  obtain ⟨x, hx⟩ := h2
  unfold generate
  simp only
  rw [hjs, Option.bind_some, hx, Option.bind_some]
  unfold buildStmt buildUpdate buildDelete tableExprs joinsHaveRelation
  cases q.kind <;> cases q.join <;> simp

/-! ### Names -/

theorem toLower_eq (c : Char) : c.toLower = lowerC c := by
  by_cases h : 'A'.toNat ≤ c.toNat ∧ c.toNat ≤ 'Z'.toNat
  · have hd : ∀ n < 91, (Char.ofNat n).toLower = lowerC (Char.ofNat n) := by decide +kernel
    have := hd c.toNat (by have := h.2; simp at this; omega)
    rwa [Char.ofNat_toNat] at this
  · rw [lowerC, if_neg h]
    unfold Char.toLower
    rw [dif_neg]
    exact h

/-- A word: no white space at its ends, as in the names of Go types. -/
theorem nameOk_of {n : Bytes} (hs : 'ſ' ∉ n) (ht : trim n = n) (h : Command.isTarget n = true) :
    nameOk n = true ∨ (lower n).take 6 = b!"filter" := by
  have e : ∀ w : Bytes, w.length = 6 → Command.Begins w n → (lower n).take 6 = w := by
    intro w hw hb
    unfold Command.Begins at hb
    rw [hw] at hb
    rw [← hb, lower, List.map_take]
    congr 1
    exact List.map_congr_left fun c _ => (toLower_eq c).symm
  have e' : tolower n = lower n := by rw [tolower, ht]
  unfold nameOk
  rw [e']
  rcases (Command.C65_name_partial hs).1 h with h | h | h | h | h
  · rw [e _ rfl h]; exact .inl (by decide)
  · rw [e _ rfl h]; exact .inl (by decide)
  · rw [e _ rfl h]; exact .inl (by decide)
  · rw [e _ rfl h]; exact .inl (by decide)
  · exact .inr (e _ rfl h)

/-! ### The tool -/

/-- **C99** A target whose name is plain, that is a struct, all of whose types are declared in packages and whose
options are not empty, checked against the catalog of a database, crashes the tool exactly if it is an update or
delete with a From or Using struct without a Relation directive. -/
theorem C99_tool {env : Env} {cat : Catalog} {cache : Cache} {n : Bytes} {fs : Fields} (hs : 'ſ' ∉ n)
    (ht : trim n = n) (hn : Command.isTarget n = true) (ok : fieldsOk fs = true) (hc : CatOk cat) :
    outcomeOf env cat cache n (.struct fs) = .crash ↔
      (lower n).take 6 ≠ b!"filter" ∧ ∃ s t, analyzeQuery env cache n fs.toList = .ok s ∧
        checkQuery cat s.q = .ok t ∧ joinsHaveRelation s.q = false := by
  have okl := fieldsOk_list ok
  unfold outcomeOf analysisRun
  by_cases hf : (lower n).take 6 = b!"filter"
  · simp only [hf, if_true, ne_eq, not_true_eq_false, false_and, iff_false]
    cases ha : analyzeFilter env cache n fs.toList with
    | panic => exact absurd ha (C99_filter env cache n okl)
    | err e => simp [Res.map]
    | ok r =>
      simp only [Res.map, checkTarget]
      cases hk : checkFilter cat r.1 with
      | panic => exact absurd hk (C99_check_filter hc r.1)
      | err e => simp
      | ok t => simp [builds]
  · have hq : nameOk n = true := (nameOk_of hs ht hn).resolve_right hf
    simp only [hf, if_false, ne_eq, not_false_eq_true, true_and]
    cases ha : analyzeQuery env cache n fs.toList with
    | panic => exact absurd ha (C99_query env cache hq okl)
    | err e => simp [Res.map]
    | ok s =>
      simp only [Res.map, checkTarget]
      cases hk : checkQuery cat s.q with
      | panic => exact absurd hk (C99_check hc ha)
      | err e =>
        simp only [reduceCtorEq, false_iff, not_exists]
        rintro s' t ⟨h1, h2, _⟩
        cases h1
        rw [hk] at h2
        cases h2
      | ok t =>
        have hb : Built cat s.q t := ⟨⟨env, cache, n, _, s, ha, rfl⟩, hk⟩
        have hg := C99_generate hb
        constructor
        · intro h
          cases hi : generate s.q t with
          | none => exact ⟨s, t, rfl, hk, hg.1 hi⟩
          | some c => simp [builds, hi] at h
        · rintro ⟨s', t', h1, h2, h3⟩
          cases h1
          rw [hk] at h2
          cases h2
          simp [builds, hg.2 h3]

/-! ### Cases -/

/-- The catalog of a database with an array, a literal and an index. -/
def soundCat : Catalog :=
  { shopCat with
    litOid := fun l => if l = b!"'x'" then some Oid.text else none
    rels := shopCat.rels ++ [(b!"tags", { columns := [{ num := 1, name := b!"id", typeOid := Oid.int4 }]
                                          indexes := [{ name := b!"tags_i", isUnique := true, key := [0]
                                                        definition := b!"CREATE INDEX tags_i ON tags USING btree (lower('it''s'))" }] })] }

theorem soundCat_ok : CatOk soundCat := by
  constructor
  · have : soundCat.types.all (fun t => !t.isArray || (soundCat.type t.elem).isSome) = true := by decide +kernel
    intro t ht ha
    have := List.all_eq_true.1 this t ht
    rw [ha] at this
    simpa using this
  · intro l o h
    simp only [soundCat] at h
    split at h
    · cases h; decide +kernel
    · cases h
  · have : soundCat.rels.all (fun r => r.2.indexes.all fun i => decide (i.definition.getLast? ≠ some '\'')) = true := by
      decide +kernel
    intro r hr i hi
    simpa using List.all_eq_true.1 (List.all_eq_true.1 this r hr) i hi

def usersRec : Ty := .slice userTy

/-- **C99** A query and a filter that are built, and a query that is refused: the column is unknown. -/
theorem C99_example :
    outcomeOf env0 soundCat [] b!"SelectUsers" (.struct (.ofList [relFld usersRec,
      whereOf [sqlFld b!"Age" [b!"u.age >"] Analysis.intTy, dirFld b!"Column" [b!"u.name = 'x'"]]])) = .built ∧
    outcomeOf env0 soundCat [] b!"FilterUsers" (.struct (.ofList (filterStruct []
      [sqlFld b!"Id" [b!"id"] Analysis.intTy]))) = .built ∧
    outcomeOf env0 soundCat [] b!"SelectUsers" (.struct (.ofList [relFld usersRec,
      whereOf [sqlFld b!"Age" [b!"u.size >"] Analysis.intTy]])) = .refused ∧
    fieldsOk (.ofList [relFld usersRec,
      whereOf [sqlFld b!"Age" [b!"u.age >"] Analysis.intTy, dirFld b!"Column" [b!"u.name = 'x'"]]]) = true := by
  decide +kernel

/-- **C99** An update with a From struct without a Relation directive. -/
theorem C99_not_relation : outcomeOf env0 soundCat [] b!"UpdateUser" (.struct (.ofList [relFld (.ptr userTy),
      whereOf [sqlFld b!"Age" [b!"u.age >"] Analysis.intTy],
      ({ name := b!"From" }, .struct (.ofList [dirFld b!"LeftJoin" [b!"posts:p", b!"p.user_id = u.id"]]))])) =
    .crash := by decide +kernel

/-- **C99** A comma at the end of a tag, `sql:"id,"`, crashes the tool. -/
theorem C99_not_option : outcomeOf env0 soundCat [] b!"SelectUsers" (.struct (.ofList [relFld (.slice (structTy b!"Rec"
      [sqlFld b!"Id" [b!"id", []] Analysis.intTy]))])) = .crash := by decide +kernel

/-- **C99** So does a field of type `error`, in the target or in its records. -/
theorem C99_not_error :
    outcomeOf env0 soundCat [] b!"SelectUsers" (.struct (.ofList [relFld usersRec, ({ name := b!"err" }, errorTy)])) =
      .crash ∧
    outcomeOf env0 soundCat [] b!"SelectUsers" (.struct (.ofList [relFld (.slice (structTy b!"Rec"
      [sqlFld b!"Id" [b!"id"] Analysis.intTy, sqlFld b!"Err" [b!"name"] errorTy]))])) = .crash := by decide +kernel

/-- **C99** A target that is no struct crashes the tool, whatever else it is. -/
theorem C99_only_structs (env : Env) (cat : Catalog) (cache : Cache) (n : Bytes) (u : Ty)
    (h : ∀ fs, u ≠ .struct fs) : outcomeOf env cat cache n u = .crash := by
  have e : analysisRun env cache n u = .panic := by
    unfold analysisRun
    split
    · rename_i fs; exact absurd rfl (h fs)
    · rfl
  rw [outcomeOf, e]

example : outcomeOf env0 soundCat [] b!"SelectUsers" usersRec = .crash :=
  C99_only_structs _ _ _ _ _ fun fs h => by cases h

/-- **C99** A target that is no struct: `type FilterFunc func()`. -/
theorem C99_not_struct : Command.isTarget b!"FilterFunc" = true ∧
    outcomeOf env0 soundCat [] b!"FilterFunc" (.func { params := 0, results := 0, errResult := false } (.struct .nil)) = .crash := by decide +kernel

/-- **C99** A name with the letter `ſ`. -/
theorem C99_not_name : Command.isTarget b!"ſelectUsers" = true ∧
    outcomeOf env0 soundCat [] b!"ſelectUsers" (.struct (.ofList [relFld usersRec])) = .crash := by decide +kernel

def quotedIx : RawIndex := { name := b!"i", isUnique := true, key := [1], definition := b!"x (''" }

def quotedCat : Catalog :=
  { soundCat with
    rels := [(b!"users", { columns := [{ num := 1, name := b!"id", typeOid := Oid.int4 }], indexes := [quotedIx] })] }

/-- **C99** The catalog without the type of the elements of a column, without that of a literal, and with an index
whose definition ends in a quote. -/
theorem C99_not_catalog :
    outcomeOf env0 { soundCat with types := [arrTy 1007 Oid.int4 b!"integer[]"]
                                   rels := [(b!"users", { columns := [{ num := 4, name := b!"tags", typeOid := 1007 }] })] }
      [] b!"SelectUsers" (.struct (.ofList [relFld (.slice (structTy b!"Rec"
        [sqlFld b!"Tags" [b!"tags"] (.slice Analysis.intTy)]))])) = .crash ∧
    outcomeOf env0 { soundCat with litOid := fun _ => some 705 } [] b!"SelectUsers" (.struct (.ofList [relFld usersRec,
      whereOf [dirFld b!"Column" [b!"u.name = 'x'"]]])) = .crash ∧
    outcomeOf env0 quotedCat [] b!"DeleteUsers" (.struct (.ofList [relOnly, dirFld b!"All" []])) = .crash := by
  refine ⟨?_, ?_, ?_⟩ <;> decide +kernel

end Verif.Generator
