import Verif.Generator.Gen

/-
The output of a generated method: /repo/internal/generator/generator.go:441-574, 1775-1832, 1868-2040.

`new(T)` is represented by the selector node that names T.  Error handling is in Errors.lean.
-/
namespace Verif.Generator
open Verif.Analysis Verif.Postgres

/-- generator.go:443: otherwise the rest of 448-588 is skipped and what follows is not there. -/
def hasOutput (q : Query) (t : TargetInfo) : Bool := !t.reads.isEmpty || isSelectCountOrExists q

/-! ### Destinations -/

/-- generator.go:457-462. -/
def outputType (q : Query) : RelType :=
  match q.result with
  | none => q.rel.type
  | some r => r.2

def outputName (q : Query) : Bytes :=
  match q.result with
  | none => q.rel.fieldName
  | some r => r.1

/-- generator.go:464. -/
def outputRoot (q : Query) : GoExpr := .sel recv (outputName q)

/-- generator.go:465-470. -/
def outputVar (q : Query) : GoExpr :=
  if (outputType q).isSlice && canSkipRelInit q then .index (outputRoot q) (.ident b!"i")
  else if (outputType q).isSlice || (outputType q).isIter then .ident b!"v"
  else outputRoot q

/-- generator.go:563-570. -/
def scanArg (q : Query) (r : FieldRead) : GoExpr :=
  addConv r.scanner (.addr (fieldSel (outputVar q) r.field))

/-- generator.go:554-573 and 443: `outputArgs`. -/
def outputArgs (q : Query) (t : TargetInfo) : List GoExpr :=
  if !hasOutput q t then []
  else if isSelectCountOrExists q then [.addr (outputRoot q)] else t.reads.map (scanArg q)

/-! ### Initialization -/

/-- What is declared or assigned before scanning: generator.go:478-514. -/
inductive RootInit where
  | none
  /-- `q.F = new(T)` -/
  | newRoot
  /-- `v := new(T)` -/
  | newVar
  /-- `var v T` -/
  | declVar
deriving Repr, DecidableEq

def rootInit (q : Query) (t : TargetInfo) : RootInit :=
  let ty := outputType q
  if !hasOutput q t then .none
  else if canSkipRelInit q then .none
  else if !ty.isSlice && !ty.isIter && ty.isPointer then .newRoot
  else if (ty.isSlice || ty.isIter) && ty.isPointer then .newVar
  else if (ty.isSlice || ty.isIter) && !ty.isPointer then .declVar
  else .none

/-- `fx = new(T)`: the pointer that is set, as the nodes selected from the record. -/
abbrev PtrInit := List SelNode

/-- The keys of the map `done`. -/
def nodeKey (p : List SelNode) : Bytes := p.flatMap (·.name)

/-- generator.go:529-548: the rest of the nodes of a field, after `p`. -/
def nodeInits (done : List Bytes) (p : List SelNode) : List SelNode → List PtrInit × List Bytes
  | [] => ([], done)
  | n :: ns =>
    if n.isPointer && !done.contains (nodeKey (p ++ [n])) then
      let r := nodeInits (nodeKey (p ++ [n]) :: done) (p ++ [n]) ns
      ((p ++ [n]) :: r.1, r.2)
    else nodeInits done (p ++ [n]) ns

/-- The loop of generator.go:525-550. -/
def readInits (done : List Bytes) : List FieldRead → List PtrInit
  | [] => []
  | r :: rs =>
    let x := nodeInits done [] r.field.selector
    x.1 ++ readInits x.2 rs

/-- generator.go:517-551. -/
def fieldInits (q : Query) (t : TargetInfo) : List PtrInit :=
  if canSkipRelInit q then [] else readInits [] t.reads

/-! ### The result statements -/

/-- How the method runs the statement: generator.go:206-216. -/
inductive Call where
  | exec
  /-- QueryRow, one Scan -/
  | row
  /-- Query, a Scan for each row -/
  | rows
deriving Repr, DecidableEq

def callOf (q : Query) : Call :=
  if isWithoutOutput q then .exec else if isSingleOutput q then .row else .rows

/-- What is done with a scanned row: generator.go:1994-2034.  Without output what was to be set at 464-475 is
not set: the destination of `append` is nil. -/
inductive Keep where
  /-- it was scanned into the field -/
  | inPlace
  /-- `q.F(v)` or `q.F.Method(v)` -/
  | iterate
  /-- `i += 1`: the row was scanned into the i-th record of the input -/
  | input
  /-- `q.F = append(q.F, v)` -/
  | append
deriving Repr, DecidableEq

def keepOf (q : Query) (t : TargetInfo) : Keep :=
  if callOf q = .rows then
    if !hasOutput q t then .append
    else if (outputType q).isIter then .iterate
    else if isInsertOrUpdateSlice q && q.result.isNone then .input
    else .append
  else .inPlace

/-- What scanning does with the i-th row: the record, as the index in the output list or the input list,
or nothing if it is the single record or given to the iterator. -/
inductive Target where
  | single
  | element (i : Nat)
  | visited (i : Nat)
deriving Repr, DecidableEq

/-- The loop over the rows: generator.go:1868-2040.  `len` is the number of records in the output field
when the method is called.  `none` is an index out of range. -/
def scanRows (q : Query) (t : TargetInfo) (len : Nat) : Nat → Nat → Option (List Target)
  | _, 0 => some []
  | i, n + 1 =>
    match keepOf q t with
    | .inPlace => some [.single]
    | .iterate => (scanRows q t len (i + 1) n).map fun l => .visited i :: l
    | .input => if i < len then (scanRows q t len (i + 1) n).map fun l => .element i :: l else none
    | .append => (scanRows q t len (i + 1) n).map fun l => .element (len + i) :: l

end Verif.Generator
