import Verif.Generator.Output

/-
Specification for properties C108 and C109: the types of the records that a generated method deals with.

This follows the Go specification: "Underlying types", "Assignability" (the first two cases), "Selectors" (fields of
structs and of pointers to them; methods only of a named type and of an unnamed pointer to one), "Calls" and
"Appending to and copying slices".
-/
namespace Verif.Generator.Scoped
open Verif.Analysis Verif.Postgres

/-- The underlying type. -/
def under : Ty → Ty
  | .named _ u => u
  | t => t

def isNamed : Ty → Bool
  | .named .. => true
  | _ => false

/-- A value of type `v` may be assigned to a variable of type `t`. -/
def Assignable (v t : Ty) : Prop := v = t ∨ (under v = under t ∧ (isNamed v = false ∨ isNamed t = false))

/-- The fields of the struct `fs` can be selected from a value of type `x`. -/
def Selects (x : Ty) (fs : Fields) : Prop :=
  under x = .struct fs ∨ ∃ e, under x = .ptr e ∧ under e = .struct fs

/-- The methods of the named type `b` can be called on a variable of type `x`. -/
def Calls (x b : Ty) : Prop := isNamed b = true ∧ (x = b ∨ x = .ptr b)

/-- A function that takes a `v` and returns an error. -/
def Takes (f v : Ty) : Prop :=
  ∃ h p, f = .func h p ∧ h.params = 1 ∧ h.results = 1 ∧ h.errResult = true ∧ Assignable v p

/-- `x(v)` or, if `x` is of an interface type, `x.m(v)` returns an error. -/
def Passes (x : Ty) (m : Bytes) (v : Ty) : Prop :=
  (m = [] ∧ Takes (under x) v) ∨ ∃ h f, under x = .iface h f ∧ h.methods = 1 ∧ h.name0 = m ∧ Takes f v

/-- What the base type of a record is called is the name of `b`. -/
def Names (base : THdr) (b : Ty) : Prop :=
  ∃ i p u, b = .named i u ∧ i.pkg = some p ∧ base.name = i.name ∧ base.pkgPath = p.path

/-- The type of one record, where `b` is the struct type. -/
def recordTy (rt : RelType) (b : Ty) : Ty := if rt.isPointer then .ptr b else b

/-- The type of the variable that is scanned into: generator.go:465-470. -/
def outTy (rt : RelType) (t b : Ty) : Ty := if rt.isSlice || rt.isIter then recordTy rt b else t

/-- The type of what the values are read from: generator.go:270-275. -/
def inTy (rt : RelType) (t b : Ty) : Ty := if rt.isSlice then recordTy rt b else t

/-- The type without its names.  (In Go the underlying type of a named type has no name.) -/
def bare : Ty → Ty
  | .named _ u => bare u
  | t => t

/-- The struct whose fields can be selected from a value. -/
def structOf (t : Ty) : Option Fields :=
  match bare t with
  | .struct fs => some fs
  | .ptr e => match bare e with
    | .struct fs => some fs
    | _ => none
  | _ => none

/-- The node stands for a field of type `t`: it knows whether this is a pointer and, if so, what it points to. -/
def Describes (s : SelNode) (t : Ty) : Prop :=
  (s.isPointer = true ↔ ∃ e, bare t = .ptr e) ∧
  ∀ i u, bare t = .ptr (.named i u) → isNamed u = false →
    s.typeName = i.name ∧ ∃ p, i.pkg = some p ∧ s.typePkgPath = p.path

/-- The selectors lead from a struct through fields of struct types, or pointers to them, to a field of type `T`. -/
inductive Leads : Fields → List SelNode → Bytes → Ty → Prop
  | field {fs : Fields} {h : FieldHdr} {t : Ty} : (h, t) ∈ fs.toList → h.name ≠ b!"_" → Leads fs [] h.name t
  | step {fs gs : Fields} {h : FieldHdr} {t : Ty} {s : SelNode} {l : List SelNode} {n : Bytes} {T : Ty} :
      (h, t) ∈ fs.toList → h.name ≠ b!"_" → s.name = h.name → structOf t = some gs → Describes s t → Leads gs l n T →
      Leads fs (s :: l) n T

/-- What the analysis knows about a field of type `t`, that its records are structs `b`, is right. -/
structure Fit (t : Ty) (rt : RelType) (b : Ty) (fs : Fields) : Prop where
  struct : under b = .struct fs
  named : isNamed b = true → Names rt.base b
  after : rt.isAfterScanner = true → isNamed b = true
  /-- only a struct by itself may be without a name -/
  plain : isNamed b = false → rt.isSlice = false ∧ rt.isIter = false ∧ rt.isArray = false ∧ rt.isPointer = false
  iter : rt.isIter = true → rt.isSlice = false ∧ rt.isArray = false ∧ Passes t rt.iterMethod (recordTy rt b)
  slice : rt.isSlice = true → under t = .slice (recordTy rt b)
  array : rt.isArray = true → under t = .array rt.arrayLen (recordTy rt b)
  pointer : rt.isIter = false → rt.isSlice = false → rt.isArray = false → rt.isPointer = true → under t = .ptr b
  value : rt.isIter = false → rt.isSlice = false → rt.isArray = false → rt.isPointer = false → t = b
  /-- the fields are fields of the struct (C109) -/
  fields : ∀ f ∈ rt.fields, ∃ T, Leads fs f.selector f.name T

end Verif.Generator.Scoped
