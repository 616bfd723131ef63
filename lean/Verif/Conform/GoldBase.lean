import Verif.Conform.Base
import Verif.Conform.TestDb
import Verif.Postgres.Check
import Verif.Generator.Print

/-
What the tests of the generator do with a file: /repo/internal/generator/generator_test.go:219-287.
-/
namespace Verif.Conform
open Verif.Analysis Verif.Postgres Verif.Generator

/-- A case of the tests: the options that differ from the default, the structs of the input file, and the
lines of the expected file. -/
structure Golden where
  dir : Bytes
  file : Bytes
  method : Bytes := b!"Exec"
  withContext : Bool := false
  keyTag : Bytes := []
  targets : List (Bytes × List (FieldHdr × Ty))
  want : List Bytes

/-- The package of the file. -/
def Golden.pkgPath (g : Golden) : Bytes := b!"github.com/frk/gosql/internal/testdata/generator/" ++ g.dir

/-- generator_test.go:243-250. -/
def Golden.env (g : Golden) : Env := { pkgPath := g.pkgPath, keyTag := g.keyTag, keySep := b!"." }

/-- Does the name begin with "filter", in any case: analysis.go:66-100. -/
def isFilterName (n : Bytes) : Bool := (n.take 6).map Char.toLower = b!"filter"

/-- generator_test.go:252-268: analysis, check, and the code that is made of the result. -/
def source (cat : Catalog) (env : Env) (name : Bytes) (fs : List (FieldHdr × Ty)) : Option Source :=
  if isFilterName name then
    match analyzeFilter env [] name fs with
    | .ok s =>
      match checkFilter cat s.1 with
      | .ok t => some (.filter s.1 t)
      | _ => none
    | _ => none
  else
    match analyzeQuery env [] name fs with
    | .ok s =>
      match checkQuery cat s.q with
      | .ok t => (generate s.q t).map (.query s.q t)
      | _ => none
    | _ => none

/-- generator_test.go:271-276. -/
def produce (cat : Catalog) (g : Golden) : Option Bytes :=
  (g.targets.mapM fun x => source cat g.env x.1 x.2).map
    (Print.fileText g.pkgPath b!"testdata" { method := g.method, withContext := g.withContext } { quote := true })

/-- The text of the lines. -/
def unlines (l : List Bytes) : Bytes := l.flatMap (· ++ b!"\n")

/-- The file that is made is the expected one, but for blanks. -/
def asGolden (g : Golden) : Prop := ∃ text, produce testCat g = some text ∧
    Print.squeeze text = Print.squeeze (unlines g.want)

def isGolden (g : Golden) : Bool :=
  match produce testCat g with
  | some t => Print.squeeze t = Print.squeeze (unlines g.want)
  | none => false

theorem isGolden_sound (l : List Golden) (h : l.all isGolden = true) : ∀ g ∈ l, asGolden g := by
  intro g hg
  have := List.all_eq_true.1 h g hg
  unfold isGolden at this
  revert this
  cases hp : produce testCat g with
  | none => simp
  | some t => exact fun h => ⟨t, hp, by simpa using h⟩

end Verif.Conform
