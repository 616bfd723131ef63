import Verif.Base

/-
The part of Go's package text/template that the error messages use: texts, `{{.A.B}}`,
`{{F args}}`, `{{if}}…{{else}}…{{end}}` and `{{template "name" .}}`, with the functions of
/repo/internal/analysis/error.go:574-626 and /repo/internal/postgres/errors.go:594-666.

A template is a chain of nodes that ends in `done`.  The spaces that `{{-` and `-}}` trim are left out
of the texts.  `F` is the type of the references (`.A.B`) that the templates of one package use; what
they denote is given by a function to `Option Val`, where `none` is a reference that cannot be
evaluated.  Execution gives the text, or `none` if text/template reports an error.
-/
namespace Verif.Errors

/-- The value of a reference: a string, a boolean, or an integer. -/
inductive Val where
  | str (s : Bytes)
  | bool (b : Bool)
  | num (n : Nat)
deriving Repr, DecidableEq

/-- The "truth" of a value: text/template `IsTrue`. -/
def Val.truth : Val → Bool
  | .str s => s.length ≠ 0
  | .bool b => b
  | .num n => n ≠ 0

/-- How `{{.X}}` prints a value. -/
def Val.print : Val → Bytes
  | .str s => s
  | .bool true => b!"true"
  | .bool false => b!"false"
  | .num n => itoa n

/-- What a parameter of type `string` accepts. -/
def Val.asStr : Val → Option Bytes
  | .str s => some s
  | _ => none

/-- An argument. -/
inductive Expr (F : Type) where
  | lit (s : String)
  | path (p : F)
  | raw (e : Expr F)

/-- The pipeline of an `{{if}}`. -/
inductive Cond (F : Type) where
  | path (p : F)
  | not (c : Cond F)
  | or (a b : Cond F)

/-- A template: a chain of nodes. -/
inductive Tmpl (F : Type) where
  | done
  | text (s : String) (k : Tmpl F)
  | out (e : Expr F) (k : Tmpl F)
  | call (fn : Bytes) (args : List (Expr F)) (k : Tmpl F)
  | ite (c : Cond F) (t e k : Tmpl F)
  | sub (name : Bytes) (k : Tmpl F)

/-- The colour functions of a package, by name, with the text that separates the arguments. -/
structure Funcs where
  colors : List (Bytes × Bytes)
  sep : Bytes

/-- `\033[…m`. -/
def escape (c : Bytes) : Bytes := '\x1b' :: '[' :: c ++ b!"m"

/-- `strings.Join`. -/
def joinWith (sep : Bytes) : List Bytes → Bytes
  | [] => []
  | [s] => s
  | s :: ss => s ++ sep ++ joinWith sep ss

/-- getcolor: /repo/internal/analysis/error.go:628-633 and /repo/internal/postgres/errors.go:668-673. -/
def getcolor (sep c : Bytes) (vs : List Bytes) : Bytes :=
  if vs.length = 0 then escape c else escape c ++ joinWith sep vs ++ escape b!"0"

section run
variable {F : Type} (get : F → Option Val)

/-- The value of an argument; `raw` takes a string. -/
def Expr.eval : Expr F → Option Val
  | .lit s => some (.str s.toList)
  | .path p => get p
  | .raw e => (e.eval.bind Val.asStr).map fun s => .str ('`' :: s ++ b!"`")

/-- Is the pipeline true? -/
def Cond.eval : Cond F → Option Bool
  | .path p => (get p).map Val.truth
  | .not c => c.eval.map (!·)
  | .or a b => a.eval.bind fun x => if x then some true else b.eval

/-- The arguments of a colour function; all are strings. -/
def evalArgs : List (Expr F) → Option (List Bytes)
  | [] => some []
  | e :: es => ((e.eval get).bind Val.asStr).bind fun s => (evalArgs es).map (s :: ·)

/-- A call of a colour function.  (A name that is not defined fails when the program starts.) -/
def callFn (fs : Funcs) (fn : Bytes) (args : List (Expr F)) : Option Bytes :=
  (List.lookup fn fs.colors).bind fun c => (evalArgs get args).map (getcolor fs.sep c)

/-- Executing a template; `sub` executes the templates that it calls. -/
def Tmpl.run (fs : Funcs) (sub : Bytes → Option Bytes) : Tmpl F → Option Bytes
  | .done => some []
  | .text s k => (k.run fs sub).map (s.toList ++ ·)
  | .out e k => (e.eval get).bind fun v => (k.run fs sub).map (v.print ++ ·)
  | .call fn args k => (callFn get fs fn args).bind fun s => (k.run fs sub).map (s ++ ·)
  | .ite c t e k =>
    (c.eval get).bind fun b =>
      (if b then t.run fs sub else e.run fs sub).bind fun s => (k.run fs sub).map (s ++ ·)
  | .sub n k => (sub n).bind fun s => (k.run fs sub).map (s ++ ·)

end run

end Verif.Errors
