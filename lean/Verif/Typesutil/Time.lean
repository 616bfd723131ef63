import Verif.Analysis.Types
import Verif.Typesutil.Model

/-
/repo/internal/typesutil/predicates.go:110-145 IsTime, which asks for the fields of a type.
-/
namespace Verif.Typesutil
open Verif.Analysis

/-- The type is the named type time.Time (predicates.go:119-126 and 133-141). -/
def isTimeName : Ty → Bool
  | .named i _ =>
    match i.pkg with
    | some p => p.path = b!"time" && i.name = b!"Time"
    | none => false
  | _ => false

/-- predicates.go:130-142: one of the fields is embedded and is time.Time. -/
def embedsTime : Fields → Bool
  | .nil => false
  | .cons h t rest => (isTimeName t && h.embedded) || embedsTime rest

/-- predicates.go:113-145. -/
def isTime : Ty → Bool
  | .named i u =>
    isTimeName (.named i u) ||
      match u with
      | .struct fs => embedsTime fs
      | _ => false
  | _ => false

end Verif.Typesutil
