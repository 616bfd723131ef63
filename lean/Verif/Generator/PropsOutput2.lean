import Verif.Generator.PropsOutput

/- C42: examples and exceptions. -/
namespace Verif.Generator
open Verif.Analysis Verif.Postgres

/-- The names of the columns that are returned. -/
def returnedNames (c : Code) : List (Option Bytes) := (returned c).map fun x => (source x).map (·.name)

/-- The hypotheses of C42 hold for a select of a slice of records. -/
theorem C42_example : ∃ q t c, Built shopCat q t ∧ isSelectCountOrExists q = false ∧
    q.isSliceUpdate = false ∧ generate q t = some c ∧ t.reads ≠ [] ∧ callOf q = .rows ∧
    (outputType q).isArray = false ∧ returnedNames c = [some b!"id", some b!"name", some b!"age"] ∧
    rootInit q t = .newVar ∧ keepOf q t = .append ∧ (fieldInits q t).map names = [[b!"A"], [b!"A", b!"B"], [b!"C"]] ∧
    outputArgs q t =
      [.addr (.sel (.sel (.sel (.ident b!"v") b!"A") b!"B") b!"Id"),
       .addr (.sel (.sel (.sel (.ident b!"v") b!"A") b!"B") b!"Name"),
       .addr (.sel (.sel (.ident b!"v") b!"C") b!"Age")] := by
  obtain ⟨q, t, c, hb, hc, hp⟩ := code_of (env := env0) (cat := shopCat) (n := b!"SelectUsers")
    (fs := [relFld (.slice (.ptr deepTy))])
    (P := fun q t c => decide (isSelectCountOrExists q = false ∧
    q.isSliceUpdate = false ∧ t.reads ≠ [] ∧ callOf q = .rows ∧
    (outputType q).isArray = false ∧ returnedNames c = [some b!"id", some b!"name", some b!"age"] ∧
    rootInit q t = .newVar ∧ keepOf q t = .append ∧ (fieldInits q t).map names = [[b!"A"], [b!"A", b!"B"], [b!"C"]] ∧
    outputArgs q t =
      [.addr (.sel (.sel (.sel (.ident b!"v") b!"A") b!"B") b!"Id"),
       .addr (.sel (.sel (.sel (.ident b!"v") b!"A") b!"B") b!"Name"),
       .addr (.sel (.sel (.ident b!"v") b!"C") b!"Age")])) (by decide +kernel)
  obtain ⟨h1, h2, h3, h4⟩ := of_decide_eq_true hp
  exact ⟨q, t, c, hb, h1, h2, hc, h3, h4⟩

def resultFld (t : Ty) : Analysis.Field := ({ name := b!"Result" }, t)

/-- The same for records returned into a result field: they are read in the order of its type. -/
theorem C42_example_result : ∃ q t c, Built shopCat q t ∧ isSelectCountOrExists q = false ∧
    q.isSliceUpdate = false ∧ generate q t = some c ∧ callOf q = .row ∧
    returnedNames c = [some b!"age", some b!"id"] ∧ rootInit q t = .newRoot ∧
    outputArgs q t = [.addr (path [b!"Result", b!"Age"]), .addr (path [b!"Result", b!"Id"])] := by
  obtain ⟨q, t, c, hb, hc, hp⟩ := code_of (env := env0) (cat := shopCat) (n := b!"UpdateUser")
    (fs := [relFld (.ptr userTy), resultFld (.ptr (structTy b!"R"
      [sqlFld b!"Age" [b!"age"] Analysis.intTy, sqlFld b!"Id" [b!"id"] Analysis.intTy]))])
    (P := fun q t c => decide (isSelectCountOrExists q = false ∧
    q.isSliceUpdate = false ∧ callOf q = .row ∧
    returnedNames c = [some b!"age", some b!"id"] ∧ rootInit q t = .newRoot ∧
    outputArgs q t = [.addr (path [b!"Result", b!"Age"]), .addr (path [b!"Result", b!"Id"])])) (by decide +kernel)
  obtain ⟨h1, h2, h3⟩ := of_decide_eq_true hp
  exact ⟨q, t, c, hb, h1, h2, hc, h3⟩

/-- A count is scanned into the field of the query struct. -/
theorem C42_example_count : ∃ q t c, Built shopCat q t ∧ isSelectCountOrExists q = true ∧
    generate q t = some c ∧ callOf q = .row ∧ outputArgs q t = [.addr (path [b!"Count"])] := by
  obtain ⟨q, t, c, hb, hc, hp⟩ := code_of (env := env0) (cat := shopCat) (n := b!"SelectUsers")
    (fs := [({ name := b!"Count", tag := [(b!"rel", [b!"users:u"])] }, Analysis.intTy)])
    (P := fun q t _ => decide (isSelectCountOrExists q = true ∧ callOf q = .row ∧
      outputArgs q t = [.addr (path [b!"Count"])])) (by decide +kernel)
  obtain ⟨h1, h2⟩ := of_decide_eq_true hp
  exact ⟨q, t, c, hb, h1, hc, h2⟩

/-- **C42** An update of a slice has destinations and calls Query, but no RETURNING clause. -/
theorem C42_not_slice_update : ∃ q t c, Built shopCat q t ∧ generate q t = some c ∧ q.isSliceUpdate = true ∧
    callOf q = .rows ∧ (returned c).length = 0 ∧ (outputArgs q t).length = 2 := by
  obtain ⟨q, t, c, hb, hc, hp⟩ := code_of (env := env0) (cat := shopCat) (n := b!"UpdateUsers")
    (fs := [relFld (.slice userTy), returnFld])
    (P := fun q t c => decide (q.isSliceUpdate = true ∧ callOf q = .rows ∧ (returned c).length = 0 ∧
      (outputArgs q t).length = 2)) (by decide +kernel)
  exact ⟨q, t, c, hb, hc, of_decide_eq_true hp⟩

/-- **C42** An array is neither indexed nor is a record declared for the row: `&q.Users.Id`, and
`append(q.Users, v)`. -/
theorem C42_not_array : ∃ q t, Built shopCat q t ∧ callOf q = .rows ∧ (outputType q).isArray = true ∧
    outputArgs q t = [.addr (path [b!"Users", b!"Id"]), .addr (path [b!"Users", b!"Name"])] ∧
    rootInit q t = .none ∧ keepOf q t = .append := by
  obtain ⟨q, t, hb, hp⟩ := built_of (env := env0) (cat := shopCat) (n := b!"SelectUsers")
    (fs := [relFld (.array 5 userTy)])
    (P := fun q t _ => decide (callOf q = .rows ∧ (outputType q).isArray = true ∧
      outputArgs q t = [.addr (path [b!"Users", b!"Id"]), .addr (path [b!"Users", b!"Name"])] ∧
      rootInit q t = .none ∧ keepOf q t = .append)) (by decide +kernel)
  exact ⟨q, t, hb, of_decide_eq_true hp⟩

/-- **C42** If no field may be read the statement returns nothing but the method still expects rows, and
appends a variable that is not declared to a destination that is not set. -/
theorem C42_not_unread : ∃ q t c, Built shopCat q t ∧ generate q t = some c ∧ callOf q = .rows ∧
    (returned c).length = 0 ∧ t.reads.length = 0 ∧ keepOf q t = .append ∧ rootInit q t = .none := by
  obtain ⟨q, t, c, hb, hc, hp⟩ := code_of (env := env0) (cat := shopCat) (n := b!"DeleteUsers")
    (fs := [relFld (.slice (structTy b!"User" [sqlFld b!"Id" [b!"id", b!"wo"] Analysis.intTy])), returnFld])
    (P := fun q t c => decide (callOf q = .rows ∧
      (returned c).length = 0 ∧ t.reads.length = 0 ∧ keepOf q t = .append ∧ rootInit q t = .none))
    (by decide +kernel)
  exact ⟨q, t, c, hb, hc, of_decide_eq_true hp⟩

/-- DO NOTHING. -/
def ignoresConflicts (c : Code) : Bool :=
  match c.sql.tail with
  | .insert (some k) _ => k.update.isEmpty
  | _ => false

def ignoreFld : Analysis.Field :=
  ({ name := b!"OnConflict" }, .struct (.ofList [({ name := b!"_" }, gosqlDir b!"Ignore")]))

/-- The records for which rows are returned if the others are in conflict. -/
def inserted : List Bool → List Nat := fun l => (List.range l.length).filter fun i => !l.getD i false

/-- **C42** The rows returned by an insert that ignores conflicts are not those of the records they are
stored in: if the first of two records is in conflict the row of the second is stored in the first. -/
theorem C42_not_ignore : ∃ q t c, Built shopCat q t ∧ generate q t = some c ∧ ignoresConflicts c = true ∧
    keepOf q t = .input ∧ (returned c).length = 2 ∧
    inserted [true, false] = [1] ∧ scanRows q t 2 0 (inserted [true, false]).length = some [.element 0] := by
  obtain ⟨q, t, c, hb, hc, hp⟩ := code_of (env := env0) (cat := shopCat) (n := b!"InsertUsers")
    (fs := [relFld (.slice userTy), returnFld, ignoreFld])
    (P := fun q t c => decide (ignoresConflicts c = true ∧ keepOf q t = .input ∧ (returned c).length = 2 ∧
      inserted [true, false] = [1] ∧ scanRows q t 2 0 (inserted [true, false]).length = some [.element 0]))
    (by decide +kernel)
  exact ⟨q, t, c, hb, hc, of_decide_eq_true hp⟩

end Verif.Generator
