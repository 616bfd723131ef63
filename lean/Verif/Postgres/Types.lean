import Verif.Analysis.Query
import Verif.Postgres.Tables

/-
The catalog of the database and the results of the type checker:
/repo/internal/postgres/types.go, enums.go, /repo/internal/analysis/types.go:640-657 and
analysis.go:2209-2342 (what is asked of a Go type).

The database is data: what its queries return (postgres.go:1604-1985, :2035-2043) is a value of type
`Catalog`.  Errors of the connection are not modelled.  A map is a list; the list of operators stands
for one order in which Go iterates over the map.
-/
namespace Verif.Postgres
open Verif.Analysis

/-- The error codes of /repo/internal/postgres/errors.go that type checking can report. -/
inductive DbErr where
  | relationUnknown | relationColumnUnknownType
  | columnUnknown | columnQualifierUnknown | columnDefaultUnset | columnTextSearchType
  | columnComparison | columnFieldComparison | betweenColumnComparison | betweenFieldComparison
  | columnFieldTypeRead | columnFieldTypeWrite
  | predicateOperandArray | predicateOperandQuantifier | predicateOperandBool | predicateOperandNull
  | predicateLiteralExpr | procedureUnknown
  | onConflictIndexColumnsUnknown | onConflictIndexColumnsNotUnique
  | onConflictIndexUnknown | onConflictIndexNotUnique
  | onConflictConstraintUnknown | onConflictConstraintNotUnique
deriving Repr, DecidableEq

abbrev P (α : Type) := Res DbErr α

/-- A check that fails with the given code. -/
def refuseIf (c : Bool) (e : DbErr) : P Unit := if c then .err e else .ok ()

/-! ### The catalog -/

/-- types.go:236-255 Type; `typ` is `Type`, one letter of enums.go:26-33, `category` one of :38-54. -/
structure PgType where
  oid : Nat
  nameFmt : Bytes := []
  typ : Char := 'b'
  category : Char
  elem : Nat := 0
deriving Repr, DecidableEq

def PgType.isEnum (t : PgType) : Bool := t.typ = 'e'
def PgType.isArray (t : PgType) : Bool := t.category = 'A'
def PgType.isString (t : PgType) : Bool := t.category = 'S'
def PgType.isBitstring (t : PgType) : Bool := t.category = 'V'

/-- types.go:166-170. -/
structure OpKey where
  name : Bytes
  left : Nat
  right : Nat
deriving Repr, DecidableEq

/-- types.go:329-338; `context` is 'e', 'i' or 'a'. -/
structure Cast where
  source : Nat
  target : Nat
  context : Char
deriving Repr, DecidableEq

/-- types.go:343-355. -/
structure Proc where
  name : Bytes
  argType : Nat
  retType : Nat
deriving Repr, DecidableEq

/-- types.go:203-233 Column, as read from the database. -/
structure RawCol where
  num : Int
  name : Bytes
  typeMod : Int := -1
  hasNotNull : Bool := false
  hasDefault : Bool := false
  isPrimary : Bool := false
  typeOid : Nat
deriving Repr, DecidableEq

/-- types.go:203-233 Column with its type, and what identifies its relation: the catalog keeps one
`*Relation` for each RelIdent (postgres.go:1809, 1983), so pointers are equal if these are. -/
structure Column where
  num : Int
  name : Bytes
  typeMod : Int := -1
  hasNotNull : Bool := false
  hasDefault : Bool := false
  isPrimary : Bool := false
  type : PgType
  rel : RelIdent := {}
  relKind : Char := 'r'
deriving Repr, DecidableEq

/-- types.go:258-290 Index, as read from the database. -/
structure RawIndex where
  name : Bytes
  isUnique : Bool := false
  isPrimary : Bool := false
  key : List Int
  definition : Bytes
  predicate : Bytes := []
deriving Repr, DecidableEq

/-- types.go:258-290 Index. -/
structure Index where
  name : Bytes
  isUnique : Bool := false
  isPrimary : Bool := false
  key : List Int
  expression : Bytes
  predicate : Bytes := []
deriving Repr, DecidableEq

/-- types.go:294-310 Constraint; `typ` is a letter of enums.go:60-65. -/
structure Constraint where
  name : Bytes
  typ : Char
deriving Repr, DecidableEq

/-- A relation, as read from the database. -/
structure RawRel where
  relKind : Char := 'r'
  columns : List RawCol
  constraints : List Constraint := []
  indexes : List RawIndex := []
deriving Repr, DecidableEq

/-- types.go:184-199 Relation. -/
structure Relation where
  id : RelIdent := {}
  relKind : Char := 'r'
  columns : List Column
  constraints : List Constraint := []
  indexes : List Index := []
deriving Repr, DecidableEq

/-- types.go:151-163 Catalog, and the answers of the database: `rels` to `to_regclass`, `litOid` to
`pg_typeof` of a literal. -/
structure Catalog where
  types : List PgType := []
  ops : List OpKey := []
  casts : List Cast := []
  procs : List Proc := []
  rels : List (Bytes × RawRel) := []
  litOid : Bytes → Option Nat := fun _ => none

namespace Catalog
/-- `catalog.Types[id]`. -/
def type (c : Catalog) (id : Nat) : Option PgType := c.types.find? fun t => t.oid = id
/-- `_, ok := catalog.Operators[key]`. -/
def hasOp (c : Catalog) (k : OpKey) : Bool := c.ops.contains k
/-- `catalog.Casts[CastKey{Target, Source}]`: its context. -/
def castContext (c : Catalog) (target source : Nat) : Option Char :=
  (c.casts.find? fun k => k.target = target && k.source = source).map (·.context)
/-- `catalog.Procs[name]`. -/
def procsOf (c : Catalog) (name : Bytes) : List Proc := c.procs.filter fun p => p.name = name
end Catalog

/-- types.go:395-398. -/
def Column.isNullable (c : Column) : Bool := c.relKind = 'r' && !c.hasNotNull

/-- types.go:379-382 `ZeroValueLiteral`. -/
def PgType.zeroValue (t : PgType) : Option Bytes := List.lookup t.oid typeToZeroValue

/-- enums.go:80-103; a missing key gives the empty name. -/
def oprname : Option Pred → Bytes
  | some .isEQ => b!"="
  | some .notEQ => b!"<>"
  | some .notEQ2 => b!"<>"
  | some .isLT => b!"<"
  | some .isGT => b!">"
  | some .isLTE => b!"<="
  | some .isGTE => b!">="
  | some .isMatch => b!"~"
  | some .isMatchi => b!"~*"
  | some .notMatch => b!"!~"
  | some .notMatchi => b!"!~*"
  | some .isDistinct => b!"<>"
  | some .notDistinct => b!"="
  | some .isLike => b!"~~"
  | some .notLike => b!"!~~"
  | some .isILike => b!"~~*"
  | some .notILike => b!"!~~*"
  | some .isSimilar => b!"~~"
  | some .notSimilar => b!"!~~"
  | some .isIn => b!"="
  | some .notIn => b!"<>"
  | _ => []

/-! ### Go types -/

/-- enums.go:64-94 of package analysis: the names of the kinds. -/
def kindName : Kind → Bytes
  | .invalid => b!"<invalid>"
  | .bool => b!"bool"
  | .int => b!"int"
  | .int8 => b!"int8"
  | .int16 => b!"int16"
  | .int32 => b!"int32"
  | .int64 => b!"int64"
  | .uint => b!"uint"
  | .uint8 => b!"uint8"
  | .uint16 => b!"uint16"
  | .uint32 => b!"uint32"
  | .uint64 => b!"uint64"
  | .uintptr => b!"uintptr"
  | .float32 => b!"float32"
  | .float64 => b!"float64"
  | .complex64 => b!"complex64"
  | .complex128 => b!"complex128"
  | .string => b!"string"
  | .unsafePointer => []
  | .array => b!"array"
  | .interface => b!"interface"
  | .map => b!"map"
  | .ptr => b!"ptr"
  | .slice => b!"slice"
  | .struct => b!"struct"
  | .chan => b!"chan"
  | .func => b!"func"

/-- analysis.go:2228-2235: the literal of a named type. -/
def namedLiteral (h : THdr) : Bytes :=
  if h.pkgName.length > 0 then h.pkgName ++ b!"." ++ h.name else h.name

/-- analysis.go:2237-2268 for types without element type. -/
def leafLiteral (h : THdr) : Bytes :=
  match h.kind with
  | .uint8 => if h.isByte then b!"byte" else b!"uint8"
  | .int32 => if h.isRune then b!"rune" else b!"int32"
  | .interface => if h.isEmptyInterface then b!"interface{}" else b!"<unsupported>"
  | .struct | .chan | .func => b!"<unsupported>"
  | k => kindName k

/-- analysis.go:2227-2269 `literal(false, elidePtr)`.  The analyzer sets `Elem` exactly for arrays,
slices and pointers, and `Key` and `Elem` for maps. -/
def literal : TypeInfo → Bool → Bytes
  | .leaf h, _ => if h.name.length > 0 then namedLiteral h else leafLiteral h
  | .elem h e, elide =>
    if h.name.length > 0 then namedLiteral h
    else
      match h.kind with
      | .array => b!"[" ++ itoa h.arrayLen ++ b!"]" ++ literal e false
      | .slice => b!"[]" ++ literal e false
      | .ptr => if elide then literal e false else b!"*" ++ literal e false
      | k => kindName k
  | .keyed h k e, _ =>
    if h.name.length > 0 then namedLiteral h
    else b!"map[" ++ literal k false ++ b!"]" ++ literal e false

/-- analysis.go:2209-2220 GenericLiteral. -/
def genericLiteral (t : TypeInfo) : Bytes :=
  if t.kind.isBasic then
    if t.hdr.isByte then b!"byte"
    else if t.hdr.isRune then b!"rune"
    else kindName t.kind
  else literal t true

/-- The question asked of a type or of the type it points to. -/
def TypeInfo.here (f : THdr → Bool) (t : TypeInfo) : Bool :=
  f t.hdr || (t.kind = .ptr && t.elem?.any fun e => f e.hdr)

/-- types.go:650-653. -/
def implementsScanner (t : TypeInfo) : Bool :=
  TypeInfo.here (fun h => h.isScanner && h.kind ≠ .interface) t
/-- types.go:655-657. -/
def implementsValuer (t : TypeInfo) : Bool := TypeInfo.here (·.isValuer) t
/-- analysis.go:2317-2319. -/
def implementsJSONMarshaler (t : TypeInfo) : Bool := TypeInfo.here (·.isJSONMarshaler) t
/-- analysis.go:2322-2324. -/
def implementsJSONUnmarshaler (t : TypeInfo) : Bool := TypeInfo.here (·.isJSONUnmarshaler) t
/-- analysis.go:2327-2329. -/
def implementsXMLMarshaler (t : TypeInfo) : Bool := TypeInfo.here (·.isXMLMarshaler) t
/-- analysis.go:2332-2334. -/
def implementsXMLUnmarshaler (t : TypeInfo) : Bool := TypeInfo.here (·.isXMLUnmarshaler) t
/-- analysis.go:2337-2339. -/
def isJSONIllegal (t : TypeInfo) : Bool :=
  t.is .chan || t.is .func || t.is .complex64 || t.is .complex128
/-- analysis.go:2342-2344. -/
def isXMLIllegal (t : TypeInfo) : Bool := t.is .chan || t.is .func || t.is .map
/-- analysis.go:2287-2296, for bytes. -/
def isByteSlice (t : TypeInfo) : Bool :=
  t.kind = .slice && t.elem?.any fun e => e.kind = .uint8

/-! ### Results: types.go:13-145 -/

/-- types.go:16-25 FieldWrite.  `idx` is the position of the field in its record, which stands for the
pointer `Field`. -/
structure FieldWrite where
  idx : Nat
  field : FieldInfo
  column : Column
  colIdent : ColIdent
  valuer : Bytes := []
deriving Repr, DecidableEq

structure FieldRead where
  field : FieldInfo
  column : Column
  colIdent : ColIdent
  scanner : Bytes := []
deriving Repr, DecidableEq

structure FieldFilter where
  field : FieldInfo
  column : Column
  colIdent : ColIdent
  valuer : Bytes := []
deriving Repr, DecidableEq

/-- types.go:358-361. -/
def FieldWrite.needsNullif (w : FieldWrite) : Bool :=
  w.column.isNullable && w.field.type.kind ≠ .ptr && !implementsValuer w.field.type &&
    w.valuer.length = 0

/-- types.go:363-370. -/
def FieldRead.needsCoalesce (r : FieldRead) : Bool :=
  r.field.useCoalesce ||
    (r.column.isNullable && r.field.type.kind ≠ .ptr && !implementsScanner r.field.type &&
      r.scanner.length = 0)

/-- types.go:400-402. -/
def FieldFilter.treatAsNullable (f : FieldFilter) : Bool :=
  !f.field.mode.treatAsNotNull && !f.column.hasNotNull

/-- types.go:58-75. -/
structure FieldConditional where
  fieldName : Bytes
  fieldType : TypeInfo
  colIdent : ColIdent
  column : Column
  pred : Option Pred
  quant : Option Quant := none
  func : Bytes := []
  valuer : Bytes := []
deriving Repr, DecidableEq

/-- types.go:79-96. -/
structure ColumnConditional where
  lhs : ColIdent
  lhsColumn : Column
  rhs : Rhs := .none
  rhsColumn : Option Column := none
  rhsType : Option PgType := none
  pred : Option Pred
  quant : Option Quant := none
deriving Repr, DecidableEq

inductive RangeBound where
  | field (f : FieldConditional)
  | column (c : ColumnConditional)
deriving Repr, DecidableEq

structure BetweenConditional where
  fieldName : Bytes
  colIdent : ColIdent
  column : Column
  pred : Option Pred
  lower : RangeBound
  upper : RangeBound
deriving Repr, DecidableEq

inductive Cond where
  | bool (isOr : Bool)
  | nested (name : Bytes) (items : List Cond)
  | field (f : FieldConditional)
  | column (c : ColumnConditional)
  | between (b : BetweenConditional)
deriving Repr

inductive JoinCond where
  | bool (isOr : Bool)
  | column (c : ColumnConditional)
deriving Repr, DecidableEq

inductive ConflictTarget where
  | index (expression predicate : Bytes)
  | constraint (name : Bytes)
deriving Repr, DecidableEq

structure ConflictInfo where
  target : Option ConflictTarget := none
  update : List Column := []
deriving Repr, DecidableEq

/-- postgres.go:165-177 TargetInfo. -/
structure TargetInfo where
  reads : List FieldRead := []
  writes : List FieldWrite := []
  filters : List FieldFilter := []
  pkeys : List FieldWrite := []
  joins : List (List JoinCond) := []
  wher : List Cond := []
  conflict : Option ConflictInfo := none
deriving Repr

end Verif.Postgres
