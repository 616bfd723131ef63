import Verif.Analysis.Query

/-
Helpers for writing down the types of the project's test data, /repo/internal/testdata, and for comparing
the results of the analysis with the expected ones.
-/
namespace Verif.Conform
open Verif.Analysis

/-- An exported field. -/
def fld (name : Bytes) (t : Ty) (tag : Tag := []) : FieldHdr × Ty := ({ name := name, tag := tag }, t)
/-- A field that is not exported. -/
def low (name : Bytes) (t : Ty) (tag : Tag := []) : FieldHdr × Ty :=
  ({ name := name, exported := false, tag := tag }, t)
/-- An embedded field. -/
def emb (name : Bytes) (t : Ty) (tag : Tag := []) : FieldHdr × Ty :=
  ({ name := name, embedded := true, tag := tag }, t)
/-- An embedded field that is not exported. -/
def lowEmb (name : Bytes) (t : Ty) (tag : Tag := []) : FieldHdr × Ty :=
  ({ name := name, exported := false, embedded := true, tag := tag }, t)

/-- `interface{}` and its alias `any`. -/
def anyTy : Ty := .iface { methods := 0, isEmpty := true } .chan
/-- `error`. -/
def errorTy : Ty :=
  .named { name := b!"error", pkg := none }
    (.iface { methods := 1, name0 := b!"Error" } (.func { params := 0, results := 1, errResult := false } .chan))

/-- The tests run with `config.Config{}`: analysis_test.go:30. -/
def testEnv : Env := { pkgPath := b!"path/to/test", keySep := [] }

end Verif.Conform
