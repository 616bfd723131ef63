import Verif.Generator.Output
import Verif.Pgsql.Ints

/-
The statements of a generated method from the call of the database on, and how they run:
/repo/internal/generator/generator.go:203-217, 1775-2040, 2138-2191, 2240-2252.

The text and the arguments of the query are in Gen.lean and Run.lean, the destinations in Output.lean.
-/
namespace Verif.Generator
open Verif.Analysis Verif.Postgres

/-! ### The statements -/

/-- The calls that yield an error. -/
inductive Op where
  /-- `c.Exec(...)` -/
  | exec
  /-- `res.RowsAffected()` -/
  | rowsAffected
  /-- `c.QueryRow(...)` followed by `row.Scan(...)`: the former yields no error -/
  | rowScan
  /-- `c.Query(...)` -/
  | query
  /-- `rows.Scan(...)` -/
  | rowsScan
  /-- `q.F(v)` or `q.F.Method(v)` -/
  | visit
  /-- `rows.Err()` -/
  | rowsErr
deriving Repr, DecidableEq

inductive ErrExpr where
  | nil
  | err
  | op (o : Op)
deriving Repr, DecidableEq

inductive Ret where
  /-- `return e` -/
  | plain (e : ErrExpr)
  /-- `return q.F.HandleError(e)` -/
  | handle (field : Bytes) (e : ErrExpr)
  /-- `return q.F.HandleErrorInfo(&gosql.ErrorInfo{Error: err, QueryKind: kind, QueryName: name, ...})` -/
  | handleInfo (field kind name : Bytes)
deriving Repr, DecidableEq

inductive Instr where
  /-- `err := op`, with the other results of the call -/
  | call (o : Op)
  /-- `if err != nil { return r }` -/
  | ifErr (r : Ret)
  /-- `if err := e; err != nil { return r }` -/
  | ifInit (e : ErrExpr) (r : Ret)
  /-- `defer rows.Close()` -/
  | deferClose
  /-- outputInit and, before a loop that scans into the input, `i := 0` -/
  | init
  /-- `v.AfterScan()` -/
  | afterScan
  /-- `i += 1`, or `q.F = append(q.F, v)` -/
  | keep
  /-- `q.F = i64` or `q.F = T(i64)` -/
  | setAffected (field : Bytes) (conv : Option Kind)
  | ret (r : Ret)
deriving Repr, DecidableEq

inductive GoStmt where
  | one (i : Instr)
  /-- `for rows.Next() { ... }` -/
  | loop (body : List Instr)
deriving Repr, DecidableEq

/-- analysis/enums.go:143-156. -/
def kindName : QKind → Bytes
  | .insert => b!"Insert"
  | .update => b!"Update"
  | .delete => b!"Delete"
  | .select | .selectCount | .selectExists | .selectNotExists => b!"Select"

/-- generator.go:2138-2191. -/
def errorReturn (q : Query) (e : ErrExpr) : List Instr :=
  match q.errorHandler with
  | none => [.ret (.plain e)]
  | some (f, true) =>
    if e = .err then [.ret (.handleInfo f (kindName q.kind) q.typeName)]
    else [.ifInit e (.handleInfo f (kindName q.kind) q.typeName), .ret (.plain .nil)]
  | some (f, false) => [.ret (.handle f e)]

/-- makeErrorReturnStmt for the variable err: one return statement. -/
def errReturn (q : Query) : Ret :=
  match q.errorHandler with
  | none => .plain .err
  | some (f, true) => .handleInfo f (kindName q.kind) q.typeName
  | some (f, false) => .handle f .err

/-- analysis/types.go:756-758. -/
def hasNoErrorInfoHandler (q : Query) : Bool := !(q.errorHandler.any fun h => h.2)

/-- generator.go:473: set only if there is output. -/
def afterScans (q : Query) (t : TargetInfo) : Bool := hasOutput q t && (outputType q).isAfterScanner

/-- generator.go:1843-1885; 208-212. -/
def execStmts (q : Query) : List GoStmt :=
  .one (.call .exec) ::
    (match q.rowsAffected with
     | none => errorReturn q .err
     | some (f, k) =>
       [.ifErr (errReturn q), .call .rowsAffected, .ifErr (errReturn q),
        .setAffected f (if k = Kind.int64 then none else some k), .ret (.plain .nil)]).map .one

/-- generator.go:1795-1810, 1888-1935. -/
def rowStmts (q : Query) (t : TargetInfo) : List GoStmt :=
  (.init ::
    (if !afterScans q t && hasNoErrorInfoHandler q then errorReturn q (.op .rowScan)
     else [.call .rowScan, .ifErr (errReturn q)] ++ (if afterScans q t then [.afterScan] else []) ++
       [.ret (.plain .nil)])).map .one

/-- generator.go:1973-2030. -/
def loopBody (q : Query) (t : TargetInfo) : List Instr :=
  [.init, .call .rowsScan, .ifErr (errReturn q)] ++ (if afterScans q t then [.afterScan] else []) ++
    [if keepOf q t = .iterate then .ifInit (.op .visit) (errReturn q) else .keep]

/-- generator.go:1813-1840, 1938-2040. -/
def rowsStmts (q : Query) (t : TargetInfo) : List GoStmt :=
  [.one (.call .query), .one (.ifErr (errReturn q)), .one .deferClose, .one .init, .loop (loopBody q t)] ++
    (errorReturn q (.op .rowsErr)).map .one

/-- generator.go:206-217. -/
def resultStmts (q : Query) (t : TargetInfo) : List GoStmt :=
  match callOf q with
  | .exec => execStmts q
  | .row => rowStmts q t
  | .rows => rowsStmts q t

/-- The method of `c` that runs the query, and its arguments before those of the query:
generator.go:1779-1790, 1798-1805, 1822-1828, 2194-2206.  `ctx`: the configuration's MethodWithContext. -/
def connCall (ctx : Bool) (q : Query) : Bytes × List Bytes :=
  let m := match callOf q with
    | .exec => b!"Exec"
    | .row => b!"QueryRow"
    | .rows => b!"Query"
  (if ctx || q.context.isSome then m ++ b!"Context" else m,
   if ctx then [b!"ctx", b!"queryString"]
   else match q.context with
     | some f => [b!"q." ++ f, b!"queryString"]
     | none => [b!"queryString"])

/-! ### Running them -/

/-- What the database, the rows, the iterator and the handler do.  `fails o i` is the error of the call `o`
(in a loop, of the i-th iteration). -/
structure Db (E : Type) where
  fails : Op → Nat → Option E
  /-- how often `rows.Next()` is true -/
  rows : Nat
  /-- the number that `res.RowsAffected()` returns -/
  affected : Int
  handle : Option E → Option E
  handleInfo : Option E → Option E

/-- What can be observed of a run, in order. -/
inductive Event (E : Type) where
  | called (o : Op) (i : Nat)
  | handled (e : Option E)
  | handledInfo (e : Option E)
  | afterScan (i : Nat)
  | kept (i : Nat)
  | affected (n : Int)
  | closed
deriving Repr, DecidableEq

structure RunSt (E : Type) where
  err : Option E := none
  trace : List (Event E) := []
  deferred : Bool := false
deriving Repr, DecidableEq

section
variable {E : Type} (D : Db E)

def RunSt.emit (s : RunSt E) (e : Event E) : RunSt E := { s with trace := s.trace ++ [e] }

def evalErr (i : Nat) (s : RunSt E) : ErrExpr → RunSt E × Option E
  | .nil => (s, none)
  | .err => (s, s.err)
  | .op o => (s.emit (.called o i), D.fails o i)

/-- A return: the returned error.  The deferred call comes last. -/
def runRet (i : Nat) (s : RunSt E) (r : Ret) : RunSt E × Option E :=
  let p := match r with
    | .plain e => evalErr D i s e
    | .handle _ e => let p := evalErr D i s e; (p.1.emit (.handled p.2), D.handle p.2)
    | .handleInfo .. => (s.emit (.handledInfo s.err), D.handleInfo s.err)
  (if s.deferred then p.1.emit .closed else p.1, p.2)

def goInt : Kind → Option Pgsql.GoInt
  | .int => some .int
  | .int8 => some .int8
  | .int16 => some .int16
  | .int32 => some .int32
  | .int64 => some .int64
  | .uint => some .uint
  | .uint8 => some .uint8
  | .uint16 => some .uint16
  | .uint32 => some .uint32
  | .uint64 => some .uint64
  | _ => none

/-- The conversion T(x); T is an integer type (analysis.go:1539). -/
def convertTo (k : Kind) (x : Int) : Int :=
  match goInt k with
  | some t => t.conv x
  | none => x

/-- What is assigned to the RowsAffected field. -/
def assigned (k : Option Kind) (x : Int) : Int :=
  match k with
  | none => x
  | some k => convertTo k x

/-- One statement: the state, and the returned error if the method returns. -/
def runInstr (i : Nat) (s : RunSt E) : Instr → RunSt E × Option (Option E)
  | .call o => ({ s.emit (.called o i) with err := D.fails o i }, none)
  | .ifErr r =>
    if s.err.isSome then let p := runRet D i s r; (p.1, some p.2) else (s, none)
  | .ifInit e r =>
    let p := evalErr D i s e
    if p.2.isSome then let x := runRet D i { p.1 with err := p.2 } r; (x.1, some x.2) else (p.1, none)
  | .deferClose => ({ s with deferred := true }, none)
  | .init => (s, none)
  | .afterScan => (s.emit (.afterScan i), none)
  | .keep => (s.emit (.kept i), none)
  | .setAffected _ k => (s.emit (.affected (assigned k D.affected)), none)
  | .ret r => let p := runRet D i s r; (p.1, some p.2)

def runInstrs (i : Nat) (s : RunSt E) : List Instr → RunSt E × Option (Option E)
  | [] => (s, none)
  | x :: xs =>
    match runInstr D i s x with
    | (s, none) => runInstrs i s xs
    | r => r

/-- The err of the body is its own. -/
def runLoop (body : List Instr) (i : Nat) (s : RunSt E) : Nat → RunSt E × Option (Option E)
  | 0 => (s, none)
  | n + 1 =>
    match runInstrs D i s body with
    | (s', none) => runLoop body (i + 1) { s' with err := s.err } n
    | r => r

def runStmts (s : RunSt E) : List GoStmt → RunSt E × Option (Option E)
  | [] => (s, none)
  | .one x :: xs =>
    match runInstr D 0 s x with
    | (s, none) => runStmts s xs
    | r => r
  | .loop body :: xs =>
    match runLoop D body 0 s D.rows with
    | (s, none) => runStmts s xs
    | r => r

/-- A run of the method from the call of the database on: what is observed, and the returned error; `none` if
the end is reached without return. -/
def runMethod (q : Query) (t : TargetInfo) : List (Event E) × Option (Option E) :=
  let r := runStmts D {} (resultStmts q t)
  (r.1.trace, r.2)
end

end Verif.Generator
