import Verif.Generator.Imports
import Verif.Generator.FilterGen
import Verif.Generator.Run

/-
The packages that the code of a file refers to, and the imports it asks for:
/repo/internal/generator/generator.go:31-57, 180-247, 478-551, 625-634, 720-777, 853-859, 1363, 1452, 1564,
2149.

A reference is the name written before the dot, with the path of the package that is meant.  The references
in the argument types of a filter's methods are in FilterGen.lean; here they count as one per request.
-/
namespace Verif.Generator
open Verif.Analysis Verif.Postgres

/-- A place of the generator that writes a reference, or asks for an import, or both. -/
inductive Use where
  /-- the import is asked for and the name it has in the file is written -/
  | asked (r : Request)
  /-- the import is asked for and a fixed name is written -/
  | fixed (r : Request) (name : Bytes)
  /-- a fixed name is written for the package; nothing is asked for -/
  | bare (path name : Bytes)
  /-- the import is asked for; nothing is written -/
  | idle (r : Request)
deriving Repr, DecidableEq

structure Ref where
  path : Bytes
  name : Bytes
deriving Repr, DecidableEq

/-- The request of a use. -/
def Use.request : Use → List Request
  | .asked r | .fixed r _ | .idle r => [r]
  | .bare .. => []

def requestsOf (us : List Use) : List Request := us.flatMap Use.request

/-- The imports and the references after the uses. -/
def runUses (s : List Imp) : List Use → List Imp × List Ref
  | [] => (s, [])
  | .asked r :: us =>
    let p := runUses (addImport s r.1 r.2).1 us
    (p.1, { path := r.1, name := (addImport s r.1 r.2).2.name } :: p.2)
  | .fixed r n :: us =>
    let p := runUses (addImport s r.1 r.2).1 us
    (p.1, { path := r.1, name := n } :: p.2)
  | .bare path n :: us =>
    let p := runUses s us
    (p.1, { path := path, name := n } :: p.2)
  | .idle r :: us => runUses (addImport s r.1 r.2).1 us

/-! ### Queries -/

def gosqlPath : Bytes := b!"github.com/frk/gosql"
def pgsqlPath : Bytes := b!"github.com/frk/gosql/pgsql"

/-- The options of the configuration that matter: the package of MethodArgumentType, MethodWithContext. -/
structure MethodConf where
  argPath : Bytes := gosqlPath
  argName : Bytes := b!"gosql"
  withContext : Bool := false
deriving Repr, DecidableEq

/-- generator.go:627-633. -/
def convUses : GoExpr → List Use
  | .conv _ _ => [.fixed (pgsqlPath, b!"pgsql") b!"pgsql"]
  | _ => []

/-- generator.go:478-514. -/
def rootUses (q : Query) (t : TargetInfo) : List Use :=
  let b := (outputType q).base
  if !hasOutput q t || canSkipRelInit q || !b.isImported then []
  else if rootInit q t = .none then [.idle (b.pkgPath, b.pkgName)]
  else [.asked (b.pkgPath, b.pkgName)]

/-- generator.go:536-541: the type of a pointer that is set. -/
def nodeUses (p : PtrInit) : List Use :=
  match p.getLast? with
  | some n => if n.isImported then [.asked (n.typePkgPath, n.typePkgName)] else []
  | none => []

/-- generator.go:1523-1565. -/
def batchUses (q : Query) (c : Code) : List Use :=
  if isInsertOrUpdateSlice q && c.rowVals.any (fun v => !isDefault v) then
    [.fixed (gosqlPath, b!"gosql") b!"gosql"]
  else []

/-- generator.go:180-247 buildQueryCode. -/
def queryUses (conf : MethodConf) (q : Query) (t : TargetInfo) (c : Code) : List Use :=
  [.asked (conf.argPath, conf.argName)] ++
  (if conf.withContext then [.fixed (b!"context", []) b!"context"] else []) ++
  c.args.flatMap convUses ++
  rootUses q t ++
  (fieldInits q t).flatMap nodeUses ++
  (outputArgs q t).flatMap convUses ++
  c.g.slices.map (fun _ => .bare gosqlPath b!"gosql") ++
  batchUses q c ++
  (if q.errorHandler.any (fun h => h.2) then [.bare gosqlPath b!"gosql"] else [])

/-! ### Filters and files -/

/-- The requests of the methods for the columns: generator.go:826-859. -/
def colRequests (fs : List FieldFilter) : List Request :=
  fs.flatMap fun f =>
    if reservedMethods.contains (methodName f.field) then [] else importedTypes f.field.type

/-- generator.go:720-728 buildFilterCode. -/
def filterUses (pkgPath : Bytes) (conf : FilterConf) (fs : FilterStruct) (t : TargetInfo) : List Use :=
  (mapRequests pkgPath fs (columnMap conf fs t) ++ colRequests t.filters).map .asked

inductive Source where
  | query (q : Query) (t : TargetInfo) (c : Code)
  | filter (fs : FilterStruct) (t : TargetInfo)

def Source.uses (pkgPath : Bytes) (m : MethodConf) (f : FilterConf) : Source → List Use
  | .query q t c => queryUses m q t c
  | .filter fs t => filterUses pkgPath f fs t

/-- generator.go:31-57 Write: the imports and references of a file. -/
def writeFile (pkgPath : Bytes) (m : MethodConf) (f : FilterConf) (ts : List Source) : List Imp × List Ref :=
  runUses [] (ts.flatMap (Source.uses pkgPath m f))

end Verif.Generator
