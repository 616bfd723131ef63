import Verif.Pgsql.PropsBothWays
import Verif.Generator.Gen
import Verif.Generator.Output
import Verif.Generator.Accepted

/-
The Go types that package database/sql passes to the driver and scans into without help.
-/
namespace Verif.Generator

open Verif.Analysis Verif.Postgres

/-- The kinds of basic types for which `driver.DefaultParameterConverter` and `convertAssign` of database/sql
have a case. -/
def driverKind : Kind → Bool
  | .bool | .string | .int | .int8 | .int16 | .int32 | .int64 | .uint | .uint8 | .uint16 | .uint32 | .uint64
  | .float32 | .float64 => true
  | _ => false

/-- A type whose underlying type is `byte`. -/
def isByteTy : Ty → Bool
  | .basic k _ => k = .uint8
  | .named _ (.basic k _) => k = .uint8
  | _ => false

/-- The types that database/sql deals with by itself: the basic types above, slices of bytes, `time.Time` of the
standard library, types that have the method `own` (`Value` or `Scan`), and pointers to and types defined as such
types. -/
inductive Direct (own : NamedInfo → Bool) (iface : IfaceHdr → Bool) : Ty → Prop
  | basic (k : Kind) (nm : Bytes) (h : driverKind k = true) : Direct own iface (.basic k nm)
  | bytes (e : Ty) (h : isByteTy e = true) : Direct own iface (.slice e)
  | time (i : NamedInfo) (u : Ty) (p : Pkg) (hp : i.pkg = some p) (h : p.path = b!"time") (hn : i.name = b!"Time") :
    Direct own iface (.named i u)
  | own (i : NamedInfo) (u : Ty) (h : own i = true) : Direct own iface (.named i u)
  | iface (h : IfaceHdr) (m : Ty) (hh : iface h = true) : Direct own iface (.iface h m)
  | ptr (e : Ty) (h : Direct own iface e) : Direct own iface (.ptr e)
  | named (i : NamedInfo) (u : Ty) (h : Direct own iface u) : Direct own iface (.named i u)

/-- What may be passed as an argument of a query. -/
abbrev Taken : Ty → Prop := Direct (·.isValuer) (·.isValuer)

/-- That to which a pointer may be passed to `Scan`. -/
abbrev Filled : Ty → Prop := Direct (·.isScanner) fun _ => false

/-- The names of the type are those of declared types: not empty and without a dot, in a package. -/
structure Declared (i : NamedInfo) (p : Pkg) : Prop where
  pkg : i.pkg = some p
  pkgName : p.name ≠ []
  dot : '.' ∉ p.name
  name : i.name ≠ []
  /-- A type called `time.Time` is that of the standard library. -/
  time : p.name = b!"time" → i.name = b!"Time" → p.path = b!"time"

/-- So everywhere in a type, and the underlying types of named types are not named. -/
def Proper : Ty → Prop
  | .named i u => (∃ p, Declared i p) ∧ (∀ j v, u ≠ .named j v) ∧ Proper u
  | .ptr e | .slice e | .array _ e => Proper e
  | .map k e => Proper k ∧ Proper e
  | _ => True

/-- `t` is how the analyzer sees the Go type `g`. -/
def Sees (t : TypeInfo) (g : Ty) : Prop := ∃ pkg b, typeInfo pkg none g = .ok (t, b)

/-- Every Go type that the analyzer sees as `t` may be passed as an argument. -/
def BareArg (t : TypeInfo) : Prop := ∀ g, Sees t g → Proper g → Taken g

/-- Every Go type that the analyzer sees as `t` may be scanned into. -/
def BareScan (t : TypeInfo) : Prop := ∀ g, Sees t g → Proper g → Filled g

/-- The expression `a` is `e`, of a type that needs no converter, or a call of a converter on `e`. -/
def Converted (bare : TypeInfo → Prop) (a e : GoExpr) (t : TypeInfo) : Prop :=
  (a = e ∧ bare t) ∨ ∃ fn, fn ≠ [] ∧ a = .conv fn e

def boundFields (sx : GoExpr) : Bound → List (GoExpr × TypeInfo)
  | .field n t => [(.sel sx n, t)]
  | .column _ => []

mutual
/-- The fields of a where struct whose values are compared, with their types; `sx` is the struct. -/
def itemFields (sx : GoExpr) : WItem → List (GoExpr × TypeInfo)
  | .nested n items => itemsFields (.sel sx n) items
  | .field f => [(.sel sx f.name, f.type)]
  | .between b => boundFields (.sel sx b.name) b.lower ++ boundFields (.sel sx b.name) b.upper
  | _ => []
def itemsFields (sx : GoExpr) : List WItem → List (GoExpr × TypeInfo)
  | [] => []
  | i :: is => itemFields sx i ++ itemsFields sx is
end

/-- The fields from which the arguments of a query are taken: those of the record and those of the where
struct. -/
def argSources (q : Query) : List (GoExpr × TypeInfo) :=
  (q.rel.type.fields.map fun f => (fieldSel (inputRoot q) f, f.type)) ++
    match q.wher with
    | none => []
    | some w => itemsFields (.sel recv w.fieldName) w.items

/-- The literals of the rows of the table that name no valuer or no scanner. -/
def bareLits : List Bytes :=
  [b!"bool", b!"string", b!"[]byte", b!"time.Time", b!"int", b!"int8", b!"int16", b!"int32", b!"int64", b!"uint",
   b!"uint8", b!"uint16", b!"uint32", b!"uint64", b!"float32", b!"float64"]

end Verif.Generator
