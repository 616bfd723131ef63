import Verif.Base

/-
The predicates on Go types that are asked about methods: /repo/internal/typesutil/predicates.go.

Simplifications: of a type that occurs in a signature only what the predicates look at is represented; of an
interface and of a function type, the numbers of methods, parameters and results.  `promoted` are the methods
a type has because it embeds others; go/types does not list them and the predicates do not ask for them.
-/
namespace Verif.Typesutil

abbrev R := Res Unit

/-- go/types.Type in a signature.  `pkg = none` is the universe scope: `Obj().Pkg()` is nil. -/
inductive TRef where
  | basic (name : Bytes)
  | named (pkg : Option Bytes) (name : Bytes)
  | alias (pkg : Option Bytes) (name : Bytes) (to : TRef)
  | ptr (e : TRef)
  | slice (e : TRef)
  | map (k e : TRef)
  | func (params results : Nat)
  | iface (methods : Nat)
  | other (text : Bytes)
deriving Repr, DecidableEq

/-- go/types.Signature; the last parameter of a variadic function is a slice. -/
structure Sig where
  params : List TRef
  results : List TRef
  variadic : Bool := false
deriving Repr, DecidableEq

structure Method where
  name : Bytes
  sig : Sig
  /-- the receiver is a pointer -/
  ptrRecv : Bool := false
deriving Repr, DecidableEq

/-- go/types.Named: `declared` is what Method(i) lists; `iface` the methods of the underlying type if that is
an interface. -/
structure Named where
  declared : List Method := []
  iface : Option (List Method) := none
  promoted : List Method := []
deriving Repr, DecidableEq

/-! ### Types -/

/-- predicates.go:9-15. -/
def isString : TRef → Bool
  | .basic n => n = b!"string"
  | _ => false

/-- predicates.go:18-30. -/
def isStringMap : TRef → Bool
  | .map k e => isString k && isString e
  | _ => false

def filterPath : Bytes := b!"github.com/frk/gosql/filter"
def gosqlPath : Bytes := b!"github.com/frk/gosql"

/-- predicates.go:220-236; the package is asked for its path before the names are compared. -/
def isFilterColumn : TRef → R Bool
  | .named none _ => .panic
  | .named (some p) n => .ok (n = b!"Column" && filterPath.isSuffixOf p)
  | _ => .ok false

/-- predicates.go:33-45. -/
def isStringColumnMap : TRef → R Bool
  | .map k e => if !isString k then .ok false else isFilterColumn e
  | _ => .ok false

/-- predicates.go:48-54. -/
def isNiladicFunc : TRef → Bool
  | .func p r => p = 0 && r = 0
  | _ => false

/-- predicates.go:57-65. -/
def isError : TRef → Bool
  | .named p n => p = none && n = b!"error"
  | _ => false

/-- What an alias stands for. -/
def TRef.unalias : TRef → TRef
  | .alias _ _ t => t.unalias
  | t => t

/-- predicates.go:68-84. -/
def isEmptyInterface : TRef → Bool
  | .alias p n t =>
    if n ≠ b!"any" ∨ p ≠ none then false
    else
      match t.unalias with
      | .iface k => k = 0
      | _ => false
  | .iface k => k = 0
  | _ => false

/-- predicates.go:87-92. -/
def isEmptyInterfaceSlice : TRef → Bool
  | .slice e => isEmptyInterface e
  | _ => false

/-- The pattern of predicates.go:95-108, 148-161, 164-181, 184-201, 204-217. -/
def isNamed (path name : Bytes) : TRef → Bool
  | .named (some p) n => p = path && n = name
  | _ => false

def isNamedPtr (path name : Bytes) : TRef → Bool
  | .ptr e => isNamed path name e
  | _ => false

def isContext : TRef → Bool := isNamed b!"context" b!"Context"
def isSqlResult : TRef → Bool := isNamed b!"database/sql" b!"Result"
def isSqlRowsPtr : TRef → Bool := isNamedPtr b!"database/sql" b!"Rows"
def isSqlRowPtr : TRef → Bool := isNamedPtr b!"database/sql" b!"Row"
def isSqlDriverValue : TRef → Bool := isNamed b!"database/sql/driver" b!"Value"

/-- predicates.go:692-699: the kind is that of byte. -/
def isByteSlice : TRef → Bool
  | .slice (.basic n) => n = b!"byte" || n = b!"uint8"
  | _ => false

/-- The pattern of predicates.go:702-743: the package is asked for its path first. -/
def isXml (name : Bytes) : TRef → R Bool
  | .named none _ => .panic
  | .named (some p) n => .ok (n = name && p = b!"encoding/xml")
  | _ => .ok false

def isXmlPtr (name : Bytes) : TRef → R Bool
  | .ptr e => isXml name e
  | _ => .ok false

/-! ### One method -/

/-- The first method of a name. -/
def first (n : Bytes) (ms : List Method) : Option Sig := (ms.find? fun m => m.name = n).map (·.sig)

/-- predicates.go:262-271. -/
def implementsAfterScanner (t : Named) : Bool :=
  match first b!"AfterScan" t.declared with
  | some s => s.params.length = 0 && s.results.length = 0
  | none => false

/-- predicates.go:275-288. -/
def implementsErrorHandler (t : Named) : Bool :=
  match first b!"HandleError" t.declared with
  | some ⟨[a], [r], _⟩ => isError a && isError r
  | _ => false

/-- predicates.go:311-321: a pointer to gosql.ErrorInfo. -/
def isErrorInfoPtr : TRef → R Bool
  | .ptr (.named none _) => .panic
  | .ptr (.named (some p) n) => .ok (gosqlPath.isSuffixOf p && n = b!"ErrorInfo")
  | _ => .ok false

/-- predicates.go:292-321. -/
def implementsErrorInfoHandler (t : Named) : R Bool :=
  match first b!"HandleErrorInfo" t.declared with
  | some ⟨[a], [r], _⟩ => if !isError r then .ok false else isErrorInfoPtr a
  | _ => .ok false

/-- The methods that are looked at where interfaces are allowed for. -/
def Named.listed (t : Named) : List Method := t.iface.getD t.declared

/-- predicates.go:500-525. -/
def implementsScanner (t : Named) : Bool :=
  match first b!"Scan" t.listed with
  | some ⟨[a], [r], _⟩ => isEmptyInterface a && isError r
  | _ => false

/-- predicates.go:531-556. -/
def implementsValuer (t : Named) : Bool :=
  match first b!"Value" t.listed with
  | some ⟨[], [r, e], _⟩ => isSqlDriverValue r && isError e
  | _ => false

/-- predicates.go:562-587. -/
def implementsJSONMarshaler (t : Named) : Bool :=
  match first b!"MarshalJSON" t.listed with
  | some ⟨[], [r, e], _⟩ => isByteSlice r && isError e
  | _ => false

/-- predicates.go:593-618. -/
def implementsJSONUnmarshaler (t : Named) : Bool :=
  match first b!"UnmarshalJSON" t.listed with
  | some ⟨[a], [r], _⟩ => isByteSlice a && isError r
  | _ => false

/-- predicates.go:624-650 and 656-682 for the two directions. -/
def implementsXML (method arg : Bytes) (t : Named) : R Bool :=
  match first method t.listed with
  | some ⟨[a, b], [r], _⟩ =>
    (isXmlPtr arg a).bind fun x =>
      if !x then .ok false
      else (isXml b!"StartElement" b).map fun y => y && isError r
  | _ => .ok false

def implementsXMLMarshaler : Named → R Bool := implementsXML b!"MarshalXML" b!"Encoder"
def implementsXMLUnmarshaler : Named → R Bool := implementsXML b!"UnmarshalXML" b!"Decoder"

/-! ### Several methods -/

/-- The loops of predicates.go:332-415 and 435-492: a method of a name that is looked for must have the right
signature. -/
def loop (check : Method → R (Option Bool)) (found : List Bytes) : List Method → R (Option (List Bytes))
  | [] => .ok (some found)
  | m :: ms =>
    (check m).bind fun
      | none => loop check found ms
      | some false => .ok none
      | some true => loop check (m.name :: found) ms

def hasAll (names : List Bytes) (found : Option (List Bytes)) : Bool :=
  found.any fun l => names.all l.contains

/-- (query string, args ...interface{}) -/
def isQueryArgs (s : Sig) : Bool :=
  match s.params with
  | [a, b] => s.variadic && isString a && isEmptyInterfaceSlice b
  | _ => false

/-- (ctx context.Context, query string, args ...interface{}) -/
def isContextArgs (s : Sig) : Bool :=
  match s.params with
  | [c, a, b] => s.variadic && isContext c && isString a && isEmptyInterfaceSlice b
  | _ => false

def isResultError (s : Sig) : Bool :=
  match s.results with
  | [r, e] => isSqlResult r && isError e
  | _ => false

def isRowsError (s : Sig) : Bool :=
  match s.results with
  | [r, e] => isSqlRowsPtr r && isError e
  | _ => false

def isRow (s : Sig) : Bool :=
  match s.results with
  | [r] => isSqlRowPtr r
  | _ => false

def connNames : List Bytes :=
  [b!"Exec", b!"Query", b!"QueryRow", b!"ExecContext", b!"QueryContext", b!"QueryRowContext"]

/-- predicates.go:334-414. -/
def connMethod (m : Method) : R (Option Bool) :=
  if m.name = b!"Exec" then .ok (some (isQueryArgs m.sig && isResultError m.sig))
  else if m.name = b!"Query" then .ok (some (isQueryArgs m.sig && isRowsError m.sig))
  else if m.name = b!"QueryRow" then .ok (some (isQueryArgs m.sig && isRow m.sig))
  else if m.name = b!"ExecContext" then .ok (some (isContextArgs m.sig && isResultError m.sig))
  else if m.name = b!"QueryContext" then .ok (some (isContextArgs m.sig && isRowsError m.sig))
  else if m.name = b!"QueryRowContext" then .ok (some (isContextArgs m.sig && isRow m.sig))
  else .ok none

/-- predicates.go:323-418. -/
def implementsConn (t : Named) : R Bool := (loop connMethod [] t.listed).map (hasAll connNames)

def isInit (s : Sig) : Bool :=
  match s.params, s.results with
  | [a, b], [] => isStringMap a && isString b
  | _, _ => false

def isInitV2 (s : Sig) : R Bool :=
  match s.params, s.results with
  | [a, b], [] => (isStringColumnMap a).map fun x => x && isString b
  | _, _ => .ok false

def isCol (s : Sig) : Bool :=
  match s.params, s.results with
  | [a, b, c], [] => isString a && isString b && isEmptyInterface c
  | _, _ => false

def isNest (s : Sig) : Bool :=
  match s.params, s.results with
  | [a], [] => isNiladicFunc a
  | _, _ => false

def ctorNames : List Bytes := [b!"Init", b!"InitV2", b!"Col", b!"And", b!"Or"]

/-- predicates.go:437-491. -/
def ctorMethod (m : Method) : R (Option Bool) :=
  if m.name = b!"Init" then .ok (some (isInit m.sig))
  else if m.name = b!"InitV2" then (isInitV2 m.sig).map some
  else if m.name = b!"Col" then .ok (some (isCol m.sig))
  else if m.name = b!"And" then .ok (some (isNest m.sig))
  else if m.name = b!"Or" then .ok (some (isNest m.sig))
  else .ok none

/-- predicates.go:422-495, for a named type. -/
def implementsFilterConstructor (t : Named) : R Bool :=
  (loop ctorMethod [] t.listed).map (hasAll ctorNames)

end Verif.Typesutil
