import Verif.Generator.Output

/-
The imports of a generated file: /repo/internal/generator/generator.go:59-80, 2061-2135.

The list holds the imports in the order in which they were added; the pointer that is returned is
represented by its path and name, which never change.
-/
namespace Verif.Generator
open Verif.Analysis Verif.Postgres

/-- generator.go:60-71 impspec. -/
structure Imp where
  path : Bytes
  name : Bytes
  isLocal : Bool := false
  num : Nat := 0
deriving Repr, DecidableEq

/-- What follows the last slash. -/
def afterSlash (p : Bytes) : Bytes := (p.reverse.takeWhile (· ≠ '/')).reverse

/-- generator.go:2063-2068. -/
def impName (path name : Bytes) : Bytes := if name.length = 0 then afterSlash path else name

/-- generator.go:2089: `num += 1` in the last import with the name. -/
def bump (name : Bytes) : List Imp → List Imp
  | [] => []
  | i :: is =>
    if i.name = name ∧ is.all (fun j => j.name ≠ name) then { i with num := i.num + 1 } :: is
    else i :: bump name is

/-- generator.go:2062-2096 addimport: the imports and the one that is returned. -/
def addImport (s : List Imp) (path name : Bytes) : List Imp × Imp :=
  match s.find? fun i => i.path = path with
  | some i => (s, i)
  | none =>
    let n := impName path name
    match s.reverse.find? fun i => i.name = n with
    | none => (s ++ [{ path := path, name := n }], { path := path, name := n })
    | some k =>
      let i : Imp := { path := path, name := n ++ itoa (k.num + 1), isLocal := true }
      (bump n s ++ [i], i)

/-- The requests made while a file is generated. -/
abbrev Request := Bytes × Bytes

def addImports (s : List Imp) : List Request → List Imp
  | [] => s
  | r :: rs => addImports (addImport s r.1 r.2).1 rs

/-! ### The declaration -/

/-- GO.ImportSpec; the name is empty if there is none. -/
structure Spec where
  name : Bytes
  path : Bytes
deriving Repr, DecidableEq

def specOf (i : Imp) : Spec := { name := if i.isLocal then i.name else [], path := i.path }

def isGosql (s : Spec) : Bool := b!"github.com/frk/gosql".isPrefixOf s.path
def hasDot (s : Spec) : Bool := s.path.contains '.'

/-- generator.go:2099-2135 newImportDecl. -/
def importDecl (s : List Imp) : List Spec :=
  let l := s.map specOf
  (l.filter fun x => !isGosql x && !hasDot x) ++ (l.filter fun x => !isGosql x && hasDot x) ++
    l.filter isGosql

end Verif.Generator
