import Verif.Base
/- Model of the runtime helpers in gosql.go: the ordinal parameter table and InValueList. -/
namespace Verif

/-- Size of `gosql.OrdinalParameters` (gosql.go:401, `[65535]string`). -/
def maxParams : Nat := 65535

/-- `gosql.OrdinalParameters[i]` (gosql.go:401-406) for a non-negative index;
`none` is the index-out-of-range panic. -/
def ordinalAt (i : Nat) : Option Bytes :=
  if i < maxParams then some (ordinal (i + 1)) else none

/-- The same with a Go `int` index: negative indices panic as well. -/
def ordinalAtInt (i : Int) : Option Bytes :=
  if 0 ≤ i then ordinalAt i.toNat else none

/-- The loop `for i := 1; i < num; i++` of `InValueList` (gosql.go:420-423);
the first argument is the number of iterations left, `i` the loop variable. -/
def inValueLoop (pos : Int) : Nat → Int → Bytes → Option Bytes
  | 0, _, out => some out
  | n + 1, i, out => do
    let o ← ordinalAtInt (pos + i)
    inValueLoop pos n (i + 1) (out ++ b!"," ++ o)

/-- `gosql.InValueList` (gosql.go:411-426). `none` is a panic. -/
def inValueList (num pos : Int) : Option Bytes := do
  let out ← if num > 0 then ordinalAtInt pos else some []
  inValueLoop pos (num - 1).toNat 1 out

end Verif
