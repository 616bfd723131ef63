import Verif.Generator.Imports
import Verif.Filter.Model

/-
Filter types: /repo/internal/generator/generator.go:720-930 (buildFilterCode), :2324-2358,
/repo/internal/analysis/types.go:659-674, 703-709, analysis.go:2357-2370.

The column map is the list of its entries, the methods are listed in the order of their declaration.  The
values of the map refer to the functions that convert values by their package and name.
-/
namespace Verif.Generator
open Verif.Analysis Verif.Postgres

/-- types.go Identifier of package analysis. -/
structure GoIdent where
  pkgPath : Bytes
  name : Bytes
deriving Repr, DecidableEq

/-- The configuration that matters for filter types: `QuoteIdentifiers`, and `filterValueConverters`, a map
from the qualified names of types. -/
structure FilterConf where
  quote : Bool := false
  converters : List (Bytes × GoIdent) := []
deriving Repr, DecidableEq

/-- generator.go:2324-2346 makeColIdentFormatter, fmtColIdentPlain, fmtColIdentQuoted. -/
def fmtColIdent (quote : Bool) (id : ColIdent) : Bytes :=
  if quote then
    if id.qualifier.length > 0 then id.qualifier ++ b!".\"" ++ id.name ++ b!"\""
    else b!"\"" ++ id.name ++ b!"\""
  else if id.qualifier.length > 0 then id.qualifier ++ b!"." ++ id.name
  else id.name

/-- types.go:703-709 FilterValueConverter. -/
def valueConverter (conf : FilterConf) (t : TypeInfo) : Option GoIdent :=
  List.lookup (t.hdr.pkgPath ++ b!"." ++ t.hdr.name) conf.converters

/-! ### The column map -/

/-- An element of the map literal; `conv` and `nullable` are fields of the value in the second version
only. -/
structure MapEntry where
  key : Bytes
  column : Bytes
  conv : Option GoIdent := none
  nullable : Bool := false
deriving Repr, DecidableEq

/-- generator.go:742-769. -/
def entryOf (conf : FilterConf) (v2 : Bool) (f : FieldFilter) : MapEntry :=
  { key := f.field.filterColumnKey, column := fmtColIdent conf.quote f.colIdent
    conv := if v2 then valueConverter conf f.field.type else none
    nullable := v2 && f.treatAsNullable }

/-- generator.go:731-770: the loop; `done` is `keyset`. -/
def mapEntries (conf : FilterConf) (v2 : Bool) (done : List Bytes) : List FieldFilter → List MapEntry
  | [] => []
  | f :: fs =>
    if f.field.filterColumnKey.length = 0 then mapEntries conf v2 done fs
    else if done.contains f.field.filterColumnKey then mapEntries conf v2 done fs
    else entryOf conf v2 f :: mapEntries conf v2 (f.field.filterColumnKey :: done) fs

/-- generator.go:725-786 buildFilterColumnMap. -/
def columnMap (conf : FilterConf) (fs : FilterStruct) (t : TargetInfo) : List MapEntry :=
  mapEntries conf fs.constructor.2 [] t.filters

/-- generator.go:799-802: the text search column. -/
def textSearchColumn (conf : FilterConf) (fs : FilterStruct) : Bytes :=
  match fs.textSearch with
  | some id => fmtColIdent conf.quote id
  | none => []

/-! ### The methods -/

/-- A method of the filter type. -/
inductive Method where
  /-- `f.<constructor>.Init(<map>, <text search column>)` -/
  | init
  /-- `f.<constructor>.Col(<column>, op, val)` with `val` of the given type -/
  | col (name column type : Bytes)
  /-- `f.<constructor>.And(…)`, `f.<constructor>.Or(…)` -/
  | bool (name : Bytes)
deriving Repr, DecidableEq

def Method.name : Method → Bytes
  | .init => b!"Init"
  | .col n _ _ => n
  | .bool n => n

/-- generator.go:834-847. -/
def methodName (f : FieldInfo) : Bytes := nodeKey f.selector ++ f.name

/-- generator.go:2352-2358. -/
def reservedMethods : List Bytes :=
  [b!"UnmarshalFQL", b!"UnmarshalSort", b!"TextSearch", b!"AND", b!"OR"]

/-- types.go:659-674 ImportedTypes: the package path and name of each. -/
def importedTypes : TypeInfo → List Request
  | .leaf h => if h.isImported then [(h.pkgPath, h.pkgName)] else []
  | .elem h e => if h.isImported then [(h.pkgPath, h.pkgName)] else importedTypes e
  | .keyed h k e =>
    if h.isImported then [(h.pkgPath, h.pkgName)] else importedTypes k ++ importedTypes e

/-- `t.PkgName = name`. -/
def setPkgName (t : TypeInfo) (name : Bytes) : TypeInfo :=
  match t with
  | .leaf h => .leaf { h with pkgName := name }
  | .elem h e => .elem { h with pkgName := name } e
  | .keyed h k e => .keyed { h with pkgName := name } k e

/-- generator.go:853-859: the imports and the type whose literal is written. -/
def importTypes (s : List Imp) (t : TypeInfo) : List Request → List Imp × TypeInfo
  | [] => (s, t)
  | r :: rs =>
    importTypes (addImport s r.1 r.2).1 (setPkgName t (addImport s r.1 r.2).2.name) rs

/-- generator.go:826-879: the methods for the columns. -/
def colMethods (conf : FilterConf) (s : List Imp) : List FieldFilter → List Imp × List Method
  | [] => (s, [])
  | f :: fs =>
    if reservedMethods.contains (methodName f.field) then colMethods conf s fs
    else
      let x := importTypes s f.field.type (importedTypes f.field.type)
      let r := colMethods conf x.1 fs
      (r.1, .col (methodName f.field) (fmtColIdent conf.quote f.colIdent) (literal x.2 true) :: r.2)

/-- The requests for imports made by the column map: generator.go:747-760, 774-777. -/
def mapRequests (pkgPath : Bytes) (fs : FilterStruct) (es : List MapEntry) : List Request :=
  (es.filterMap fun e =>
    match e.conv with
    | some id => if id.pkgPath ≠ pkgPath then some (id.pkgPath, []) else none
    | none => none) ++
  if fs.constructor.2 then [(b!"github.com/frk/gosql/filter", b!"filter")] else []

/-- generator.go:720-728 buildFilterCode: the imports and the methods. -/
def filterCode (pkgPath : Bytes) (conf : FilterConf) (s : List Imp) (fs : FilterStruct) (t : TargetInfo) :
    List Imp × List Method :=
  let r := colMethods conf (addImports s (mapRequests pkgPath fs (columnMap conf fs t))) t.filters
  (r.1, [.init] ++ r.2 ++ [.bool b!"And", .bool b!"Or"])

/-! ### At run time -/

/-- The value of the generated map; `fn` gives the functions that convert values. -/
def runMap {α : Type} (fn : GoIdent → Filter.Val α → Except Bytes (Filter.Val α)) (es : List MapEntry) :
    List (Bytes × Filter.Column α) :=
  es.map fun e => (e.key, { name := e.column, convert := e.conv.map fn, nullable := e.nullable })

/-- A call of a method for a column. -/
def Method.call {α : Type} (op : Bytes) (val : Filter.Val α) : Method → Option (Filter.Call α)
  | .col _ c _ => some (.col c op val)
  | _ => none

end Verif.Generator
