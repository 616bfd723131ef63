import Verif.Generator.Print

/-
Specification for property C107: the declarations of a generated file.

This follows the Go specification: "Declarations and scope" (no identifier may be declared twice in the package
block, apart from the blank one) and "Method declarations" (the names of the methods of a type are distinct, and
different from those of the fields of the struct).  An identifier is a letter followed by letters and digits, the
underscore being a letter.

The declarations are listed along generator.go:41-56, 227-250, 720-933.
-/
namespace Verif.Generator.Scoped
open Verif.Analysis Verif.Postgres Verif.Generator.Print

local infixr:65 " +++ " => List.append (α := Char)

/-- A declaration of a file. -/
inductive TopDecl where
  | var (name : Bytes)
  /-- with a receiver of type `*recv` -/
  | method (recv name : Bytes)
deriving Repr, DecidableEq

/-- How the text of a declaration begins; `self` is the name of the receiver. -/
def TopDecl.head (self : Bytes) : TopDecl → Bytes
  | .var n => b!"var " +++ n +++ b!" = "
  | .method t n => b!"func (" +++ self +++ b!" *" +++ t +++ b!") " +++ n +++ b!"("

/-- The declarations of a package can stand together: `names` are the names that the package declares otherwise,
`fields T` the names of the fields of the struct type `T`. -/
structure Coexist (names : List Bytes) (fields : Bytes → List Bytes) (ds : List TopDecl) : Prop where
  once : ds.Nodup
  vars : ∀ n, .var n ∈ ds → n ∉ names
  fields : ∀ t n, .method t n ∈ ds → n ∉ fields t

/-- An identifier of ASCII characters. -/
def isIdent : Bytes → Bool
  | [] => false
  | c :: cs => (c.isAlpha || c = '_') && cs.all fun c => c.isAlphanum || c = '_'

/-! ### The declarations of a file -/

/-- The type that gets the methods. -/
def typeOf : Source → Bytes
  | .query q _ _ => q.typeName
  | .filter fs _ => fs.typeName

/-- generator.go:228, 790: the name of the receiver. -/
def selfOf : Source → Bytes
  | .query .. => b!"q"
  | .filter .. => b!"f"

/-- generator.go:731. -/
def mapVar (typeName : Bytes) : Bytes := b!"_" ++ typeName ++ b!"_colmap"

/-- generator.go:227-250, 720-728. -/
def declsOf (pkgPath : Bytes) (conf : PrintConf) (fconf : FilterConf) (s : List Imp) : Source → List TopDecl
  | .query q _ _ => [.method q.typeName conf.method]
  | .filter fs t =>
    .var (mapVar fs.typeName) :: (filterCode pkgPath fconf s fs t).2.map fun m => .method fs.typeName m.name

/-- The text that fileText has for a target. -/
def sourceText (pkgPath : Bytes) (conf : PrintConf) (fconf : FilterConf) (s : List Imp) : Source → Bytes
  | .query q t c => queryText conf s q t c
  | .filter fs t => Print.filterText pkgPath fconf s fs t

/-- The text of declarations: each begins as it should. -/
def Declares (self : Bytes) (ds : List TopDecl) (text : Bytes) : Prop :=
  ∃ bodies : List Bytes, bodies.length = ds.length ∧
    text = (ds.zip bodies).flatMap fun x => x.1.head self +++ x.2

end Verif.Generator.Scoped
