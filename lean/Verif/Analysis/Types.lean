import Verif.Analysis.Expr

/-
Go types as the analyzer sees them (go/types), struct tags (github.com/frk/tagutil, outside the
repository), and the type information derived from them:
/repo/internal/analysis/types.go:145-184 (TypeInfo), analysis.go:643-698 (analyzeTypeInfo),
:1776-1804 (analyzeTypeKind), /repo/internal/typesutil/utils.go (GetStruct, GetDirectiveName),
/repo/internal/typesutil/predicates.go:57-108, 240-258.

Simplifications:
* a type is a finite tree: recursive Go types are not represented (see Recursive.lean);
* of a function type only the number of parameters and results, the first parameter and
  "the first result is `error`" are represented; of an interface only what is asked of it;
* method sets are represented by the answers of the `typesutil.Implements...` predicates.
-/
namespace Verif.Analysis

/-! ### Struct tags -/

/-- `tagutil.Tag`: a map from keys to lists of values (the comma separated parts). -/
abbrev Tag := List (Bytes × List Bytes)

/-- `tag[key]`; nil for a missing key. -/
def Tag.get (t : Tag) (k : Bytes) : List Bytes := (List.lookup k t).getD []
/-- `_, ok := tag[key]`. -/
def Tag.has (t : Tag) (k : Bytes) : Bool := (List.lookup k t).isSome
/-- `tag.First(key)`. -/
def Tag.first (t : Tag) (k : Bytes) : Bytes := (t.get k).headD []
/-- `tag.Second(key)`. -/
def Tag.second (t : Tag) (k : Bytes) : Bytes := ((t.get k).drop 1).headD []
/-- `tag.HasOption(key, opt)`. -/
def Tag.hasOption (t : Tag) (k opt : Bytes) : Bool := ((t.get k).drop 1).contains opt
/-- `tag.Contains(key, val)`. -/
def Tag.contains (t : Tag) (k v : Bytes) : Bool := (t.get k).contains v

/-! ### Types -/

/-- enums.go:8-46 TypeKind. -/
inductive Kind where
  | invalid | bool | int | int8 | int16 | int32 | int64 | uint | uint8 | uint16 | uint32 | uint64
  | uintptr | float32 | float64 | complex64 | complex128 | string | unsafePointer
  | array | interface | map | ptr | slice | struct | chan | func
deriving Repr, DecidableEq

/-- enums.go:48 IsBasic. -/
def Kind.isBasic : Kind → Bool
  | .invalid | .array | .interface | .map | .ptr | .slice | .struct | .chan | .func => false
  | _ => true

structure Pkg where
  path : Bytes
  name : Bytes
deriving Repr, DecidableEq

/-- A named type's object and the answers of the predicates on its method set.  `pkg = none` is a
type of the universe scope (`error`): `Obj().Pkg()` is nil. -/
structure NamedInfo where
  name : Bytes
  pkg : Option Pkg
  isScanner : Bool := false
  isValuer : Bool := false
  isJSONMarshaler : Bool := false
  isJSONUnmarshaler : Bool := false
  isXMLMarshaler : Bool := false
  isXMLUnmarshaler : Bool := false
  isAfterScanner : Bool := false
  isErrorHandler : Bool := false
  isErrorInfoHandler : Bool := false
  isFilterConstructor : Bool := false
deriving Repr, DecidableEq

/-- A struct field without its type. -/
structure FieldHdr where
  name : Bytes
  exported : Bool := true
  embedded : Bool := false
  tag : Tag := []
deriving Repr, DecidableEq

/-- What is asked of a function type. -/
structure SigHdr where
  params : Nat
  results : Nat
  errResult : Bool
deriving Repr, DecidableEq

/-- What is asked of an interface type: its explicit methods' number, the name of the first. -/
structure IfaceHdr where
  methods : Nat
  name0 : Bytes := []
  exported0 : Bool := true
  isEmpty : Bool := false
  isScanner : Bool := false
  isValuer : Bool := false
deriving Repr, DecidableEq

mutual
/-- go/types.Type. -/
inductive Ty where
  | basic (k : Kind) (name : Bytes)
  | named (i : NamedInfo) (u : Ty)
  | ptr (e : Ty)
  | slice (e : Ty)
  | array (n : Nat) (e : Ty)
  | map (k e : Ty)
  | chan
  | func (h : SigHdr) (param0 : Ty)
  | iface (h : IfaceHdr) (method0 : Ty)
  | struct (fs : Fields)
/-- The fields of a struct type. -/
inductive Fields where
  | nil
  | cons (h : FieldHdr) (t : Ty) (rest : Fields)
end

deriving instance DecidableEq for Ty, Fields
deriving instance Repr for Ty, Fields

def Fields.toList : Fields → List (FieldHdr × Ty)
  | .nil => []
  | .cons h t rest => (h, t) :: rest.toList

def Fields.ofList : List (FieldHdr × Ty) → Fields
  | [] => .nil
  | (h, t) :: rest => .cons h t (ofList rest)

/-- analysis.go:1780-1804. -/
def analyzeTypeKind : Ty → Kind
  | .basic k _ => k
  | .array _ _ => .array
  | .chan => .chan
  | .func _ _ => .func
  | .iface _ _ => .interface
  | .map _ _ => .map
  | .ptr _ => .ptr
  | .slice _ => .slice
  | .struct _ => .struct
  | .named _ u => analyzeTypeKind u

/-! ### Type information -/

/-- types.go:145-184 TypeInfo without `Key` and `Elem`. -/
structure THdr where
  name : Bytes := []
  kind : Kind
  pkgPath : Bytes := []
  pkgName : Bytes := []
  isImported : Bool := false
  isScanner : Bool := false
  isValuer : Bool := false
  isJSONMarshaler : Bool := false
  isJSONUnmarshaler : Bool := false
  isXMLMarshaler : Bool := false
  isXMLUnmarshaler : Bool := false
  isEmptyInterface : Bool := false
  isByte : Bool := false
  isRune : Bool := false
  arrayLen : Nat := 0
deriving Repr, DecidableEq

/-- types.go:145-184; `Elem` is set for pointers, slices and arrays, `Key` and `Elem` for maps. -/
inductive TypeInfo where
  | leaf (h : THdr)
  | elem (h : THdr) (e : TypeInfo)
  | keyed (h : THdr) (k e : TypeInfo)
deriving Repr, DecidableEq

namespace TypeInfo
def hdr : TypeInfo → THdr
  | leaf h | elem h _ | keyed h _ _ => h
def kind (t : TypeInfo) : Kind := t.hdr.kind
def elem? : TypeInfo → Option TypeInfo
  | leaf _ => none
  | elem _ e | keyed _ _ e => some e

/-- analysis.go:2275-2283 `Is`, for one kind. -/
def is (t : TypeInfo) (k : Kind) : Bool :=
  t.kind = k || (t.kind = .ptr && t.elem?.any fun e => e.kind = k)

/-- analysis.go:2307-2309 IsSequence. -/
def isSequence (t : TypeInfo) : Bool := t.kind = .slice || t.kind = .array

/-- analysis.go:2312-2314 isNilable. -/
def isNilable (t : TypeInfo) : Bool :=
  t.is .ptr || t.is .slice || t.is .array || t.is .map || t.is .interface
end TypeInfo

/-- analysis.go:2126-2128: `none` is Go's nil; a type of the universe scope has no package. -/
def isImportedType (pkgPath : Bytes) : Option NamedInfo → R Bool
  | none => .ok false
  | some i =>
    match i.pkg with
    | none => .panic
    | some p => .ok (p.path ≠ pkgPath)

/-- analysis.go:2132-2134 isAccessible, for a struct field or method of the given name. -/
def isAccessible (pkgPath : Bytes) (name : Bytes) (exported : Bool) (named : Option NamedInfo) :
    R Bool :=
  if name = b!"_" then .ok false
  else if exported then .ok true
  else (isImportedType pkgPath named).map fun b => !b

/-- analysis.go:650-664: what is recorded about a named type. -/
def namedHdr (pkgPath : Bytes) (k : Kind) : Option NamedInfo → THdr
  | none => { kind := k }
  | some i =>
    { name := i.name, kind := k,
      pkgPath := (i.pkg.map (·.path)).getD [], pkgName := (i.pkg.map (·.name)).getD [],
      isImported := (i.pkg.map (·.path)).getD [] ≠ pkgPath,
      isScanner := i.isScanner, isValuer := i.isValuer,
      isJSONMarshaler := i.isJSONMarshaler, isJSONUnmarshaler := i.isJSONUnmarshaler,
      isXMLMarshaler := i.isXMLMarshaler, isXMLUnmarshaler := i.isXMLUnmarshaler }

/-- analysis.go:647-698.  `n` is the name under which the type was reached.  The second result is
the base element type.  `named.Obj().Pkg().Path()` panics for a type of the universe scope. -/
def typeInfo (pkgPath : Bytes) : Option NamedInfo → Ty → R (TypeInfo × Ty)
  | _, .named i u =>
    match i.pkg with
    | none => .panic
    | some _ => typeInfo pkgPath (some i) u
  | n, .basic k nm =>
    .ok (.leaf { namedHdr pkgPath k n with isRune := nm = b!"rune", isByte := nm = b!"byte" },
      .basic k nm)
  | n, .slice e =>
    (typeInfo pkgPath none e).map fun p => (.elem (namedHdr pkgPath .slice n) p.1, p.2)
  | n, .array len e =>
    (typeInfo pkgPath none e).map fun p =>
      (.elem { namedHdr pkgPath .array n with arrayLen := len } p.1, p.2)
  | n, .map k e =>
    (typeInfo pkgPath none k).bind fun pk =>
      (typeInfo pkgPath none e).map fun p => (.keyed (namedHdr pkgPath .map n) pk.1 p.1, p.2)
  | n, .ptr e =>
    (typeInfo pkgPath none e).map fun p => (.elem (namedHdr pkgPath .ptr n) p.1, p.2)
  | n, .iface h m =>
    .ok (.leaf
      (match n with
       | none => { namedHdr pkgPath .interface none with
           isEmptyInterface := h.isEmpty, isScanner := h.isScanner, isValuer := h.isValuer }
       | some i => { namedHdr pkgPath .interface (some i) with isEmptyInterface := h.isEmpty }),
      .iface h m)
  | n, .chan => .ok (.leaf (namedHdr pkgPath .chan n), .chan)
  | n, .func h p => .ok (.leaf (namedHdr pkgPath .func n), .func h p)
  | n, .struct fs => .ok (.leaf (namedHdr pkgPath .struct n), .struct fs)

/-- analysis.go:647 analyzeTypeInfo. -/
def analyzeTypeInfo (pkgPath : Bytes) (t : Ty) : R (TypeInfo × Ty) := typeInfo pkgPath none t

/-! ### Predicates on types -/

/-- A struct type, with its name if it has one: /repo/internal/typesutil/utils.go GetStruct
(`ErrBadType` is `none`). -/
def getStruct : Ty → Option (Option NamedInfo × Fields)
  | .struct fs => some (none, fs)
  | .named i (.struct fs) => some (some i, fs)
  | _ => none

def gosqlPath : Bytes := b!"github.com/frk/gosql"

/-- A struct type whose only field is `_isdir`. -/
def isDirStruct : Ty → Bool
  | .struct (.cons h _ .nil) => h.name = b!"_isdir"
  | _ => false

/-- /repo/internal/typesutil/utils.go GetDirectiveName; panics for `error`, whose package is nil. -/
def getDirectiveName : Ty → R Bytes
  | .named i u =>
    match i.pkg with
    | none => .panic
    | some p => .ok (if gosqlPath.isSuffixOf p.path ∧ isDirStruct u = true then i.name else [])
  | _ => .ok []

/-- /repo/internal/typesutil/predicates.go:240-258 (the name is compared first). -/
def isDirective (ident : Bytes) : Ty → R Bool
  | .named i u =>
    if i.name ≠ ident then .ok false
    else
      match i.pkg with
      | none => .panic
      | some p => .ok (gosqlPath.isSuffixOf p.path && isDirStruct u)
  | _ => .ok false

/-- analysis.go:2144-2152. -/
def isIntegerType : Ty → Bool
  | .basic k _ =>
    match k with
    | .int | .int8 | .int16 | .int32 | .int64 | .uint | .uint8 | .uint16 | .uint32 | .uint64 => true
    | _ => false
  | _ => false

/-- analysis.go:2155-2161. -/
def isBoolType : Ty → Bool
  | .basic k _ => k = .bool
  | _ => false

def isErrorHandler : Ty → Bool
  | .named i _ => i.isErrorHandler
  | _ => false

def isErrorInfoHandler : Ty → Bool
  | .named i _ => i.isErrorInfoHandler
  | _ => false

/-- analysis.go:2181-2192 (the name is compared first). -/
def isFilterType : Ty → R Bool
  | .named i _ =>
    if i.name ≠ b!"Filter" then .ok false
    else
      match i.pkg with
      | none => .panic
      | some p => .ok (gosqlPath.isSuffixOf p.path)
  | _ => .ok false

/-- /repo/internal/typesutil/predicates.go:95-108. -/
def isContext : Ty → Bool
  | .named i _ =>
    match i.pkg with
    | some p => p.path = b!"context" && i.name = b!"Context"
    | none => false
  | _ => false

def isFilterConstructor : Ty → Bool
  | .named i _ => i.isFilterConstructor
  | _ => false

end Verif.Analysis
