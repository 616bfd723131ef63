import Verif.Pgsql.Nulls

/-
The converters for documents: /repo/pgsql/json.go, /repo/pgsql/xml.go; and the two that are left:
/repo/pgsql/any.go, /repo/pgsql/bit.go.

The packages encoding/json and encoding/xml are parameters: what they do with a Go value of a type `δ` is a
`Coder δ`.
-/
namespace Verif.Pgsql
open Verif

/-- `Marshal` and `Unmarshal` for values of a type; `unmarshal b x` is what becomes of the destination `x`. -/
structure Coder (δ ε : Type) where
  marshal : δ → Res ε Bytes
  unmarshal : Bytes → δ → Res ε δ

/-- `jsontype.Value` (json.go:23-28), `xmltype.Value` (xml.go:30-35): `none` is the interface that is nil, or
NULL in the result.  A pointer that is nil is a value of its type. -/
def docValue {δ ε : Type} (c : Coder δ ε) : Option δ → Res ε (Option Bytes)
  | none => .ok none
  | some x => (c.marshal x).map some

/-- `jsontype.Scan` (json.go:30-35), `xmltype.Scan` (xml.go:23-28). -/
def docScan {δ ε : Type} (c : Coder δ ε) (src : Src) (dest : δ) : Res ε δ :=
  match src with
  | .bytes b => c.unmarshal b dest
  | _ => .ok dest

/-- encoding/json for a type `*bool`, with the texts it writes. -/
def boolPtrJSON : Coder (Option Bool) Unit :=
  { marshal := fun
      | none => .ok b!"null"
      | some true => .ok b!"true"
      | some false => .ok b!"false"
    unmarshal := fun b _ =>
      if b = b!"null" then .ok none
      else if b = b!"true" then .ok (some true)
      else if b = b!"false" then .ok (some false)
      else .err () }

/-- encoding/xml for a type `*T` where T is `struct { XMLName xml.Name "xml:\"t\"" }`: nothing is written for
a pointer that is nil, and reading nothing is an error (io.EOF). -/
def structPtrXML : Coder (Option Unit) Unit :=
  { marshal := fun
      | none => .ok []
      | some () => .ok b!"<t></t>"
    unmarshal := fun b _ =>
      if b = b!"<t></t>" ∨ b = b!"<t/>" then .ok (some ()) else .err () }

/-- `anyToEmptyInterface.Scan` (any.go:17-20). -/
def anyScan (src : Src) (_dest : Src) : Res Unit Src := .ok src

/-- `bitFromBool.Value` (bit.go:16-21). -/
def bitFromBool (b : Bool) : Bytes := if b then b!"1" else b!"0"

end Verif.Pgsql
