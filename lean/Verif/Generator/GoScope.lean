import Verif.Generator.Print

/-
Specification for property C106: which variables the statements of a Go function declare and use.

This follows the Go specification: "Declarations and scope" (every block has its own scope; the header of `for` and
`if` belongs to a block of its own), "Short variable declarations" (at least one variable on the left side of `:=`
has to be new in its block; the parameters belong to the block of the body), "Variable declarations" (a compiler may
refuse variables that are never used, and does) and "Terminating statements".  A package is known by its name only
where no variable has the same name.

The tree of a method is built along generator.go:180-251, 1431-2040 and 2138-2233; its text is that of Print.lean
(theorem `C106_text`).
-/
namespace Verif.Generator.Scoped
open Verif.Analysis Verif.Postgres Verif.Generator.Print

local infixr:65 " +++ " => List.append (α := Char)

/-! ### Blocks -/

/-- The statements of a block: the variables and the packages that they use, and their text. -/
inductive GoBlk where
  | nil
  /-- `ns := ...` if `short`, otherwise `var` or `const` -/
  | decl (short : Bool) (ns uses pkgs : List Bytes) (text : Bytes) (rest : GoBlk)
  | stmt (uses pkgs : List Bytes) (text : Bytes) (rest : GoBlk)
  /-- `for` or `if`, with the variables of its header -/
  | block (ns uses pkgs : List Bytes) (text : Bytes) (body rest : GoBlk)
  | ret (uses pkgs : List Bytes) (text : Bytes) (rest : GoBlk)
deriving Repr

namespace GoBlk

/-- The variables that are used and not declared before. -/
def free : GoBlk → List Bytes
  | nil => []
  | decl _ ns us _ _ rest => us ++ rest.free.filter fun n => !ns.contains n
  | stmt us _ _ rest => us ++ rest.free
  | block ns us _ _ body rest => us ++ (body.free.filter fun n => !ns.contains n) ++ rest.free
  | ret us _ _ rest => us ++ rest.free

/-- Every declaration declares something new, and every variable is used.  `cur`: the variables of the block. -/
def fine (cur : List Bytes) : GoBlk → Bool
  | nil => true
  | decl short ns _ _ _ rest =>
    (if short then ns.any fun n => n ≠ b!"_" && !cur.contains n else ns.all fun n => !cur.contains n) &&
    (ns.all fun n => n = b!"_" || cur.contains n || rest.free.contains n) && rest.fine (cur ++ ns)
  | stmt _ _ _ rest => rest.fine cur
  | block ns _ _ _ body rest => (ns.all fun n => body.free.contains n) && body.fine [] && rest.fine cur
  | ret _ _ _ rest => rest.fine cur

/-- Packages are not used where a variable has their name.  `vis`: the variables that are visible. -/
def visible (vis : List Bytes) : GoBlk → Bool
  | nil => true
  | decl _ ns _ ps _ rest => (ps.all fun p => !vis.contains p) && rest.visible (ns ++ vis)
  | stmt _ ps _ rest => (ps.all fun p => !vis.contains p) && rest.visible vis
  | block ns _ ps _ body rest => (ps.all fun p => !vis.contains p) && body.visible (ns ++ vis) && rest.visible vis
  | ret _ ps _ rest => (ps.all fun p => !vis.contains p) && rest.visible vis

/-- The last statement is a return. -/
def ends : GoBlk → Bool
  | nil => false
  | decl _ _ _ _ _ rest => rest.ends
  | stmt _ _ _ rest => rest.ends
  | block _ _ _ _ _ rest => rest.ends
  | ret _ _ _ nil => true
  | ret _ _ _ rest => rest.ends

def text : GoBlk → Bytes
  | nil => []
  | decl _ _ _ _ x rest => x +++ rest.text
  | stmt _ _ x rest => x +++ rest.text
  | block _ _ _ x body rest => x +++ body.text +++ line b!"}" +++ rest.text
  | ret _ _ x rest => x +++ rest.text

end GoBlk
open GoBlk

/-! ### Expressions -/

/-- The variables of an expression. -/
def idents : GoExpr → List Bytes
  | .ident n => [n]
  | .sel x _ => idents x
  | .index x i => idents x ++ idents i
  | .addr x => idents x
  | .conv _ x => idents x

/-- Its packages. -/
def exprPkgs : GoExpr → List Bytes
  | .conv _ x => b!"pgsql" :: exprPkgs x
  | .sel x _ | .addr x => exprPkgs x
  | .index x i => exprPkgs x ++ exprPkgs i
  | .ident _ => []

def lenVar (k : Nat) : Bytes := b!"len" +++ itoa k
def posVar (k : Nat) : Bytes := b!"pos" +++ itoa k

/-- The variables in the text of a statement: those of IN lists. -/
def slotVars : List Slot → List Bytes
  | [] => []
  | .num _ :: l => slotVars l
  | .slice k :: l => lenVar k :: posVar k :: slotVars l

def slotPkgs : List Slot → List Bytes
  | [] => []
  | .num _ :: l => slotPkgs l
  | .slice _ :: l => b!"gosql" :: slotPkgs l

/-! ### The query string -/

def declB (q : Query) (c : Code) (rest : GoBlk) : GoBlk :=
  .decl false [b!"queryString"] (slotVars c.sql.stmt.slots) (slotPkgs c.sql.stmt.slots) (declText q c) rest

def tailB (c : Code) (rest : GoBlk) : GoBlk :=
  match tailText Print.slotText c.sql.tail with
  | none => rest
  | some _ => .stmt (b!"queryString" :: slotVars c.sql.tail.slots) (slotPkgs c.sql.tail.slots) (tailLine c) rest

def assignsB (vars : List Bytes) (pre : Bytes) (args : List GoExpr) (rest : GoBlk) : GoBlk :=
  if args.length = 0 then rest
  else .stmt (vars ++ args.flatMap idents) (args.flatMap exprPkgs) (assignTexts pre 0 args) rest

/-- `queryString += ...` for one record. -/
def rowB (c : Code) : GoBlk :=
  .stmt (b!"queryString" :: (if c.rowVals.any fun v => !isDefault v then [b!"pos"] else []))
    (if c.rowVals.any fun v => !isDefault v then [b!"gosql"] else [])
    (line (b!"queryString += " +++ sepBy b!" +\n" (rowTexts true 0 c.rowVals))) .nil

def batchB (q : Query) (c : Code) (rest : GoBlk) : GoBlk :=
  let rel := b!"q." +++ q.rel.fieldName
  let n := itoa c.args.length
  let rest := .stmt [b!"queryString"] [] (line b!"queryString = queryString[:len(queryString)-1]") (tailB c rest)
  declB q c
    (if c.args.length > 0 then
       .decl true [b!"params"] [b!"q"] [] (line (b!"params := make([]interface{}, len(" +++ rel +++ b!")*" +++ n +++ b!")"))
         (.block [b!"i", b!"v"] [b!"q"] [] (line (b!"for i, v := range " +++ rel +++ b!" {"))
           (.decl true [b!"pos"] [b!"i"] [] (line (b!"pos := i * " +++ n))
             (assignsB [b!"params", b!"pos"] b!"pos+" c.args (rowB c))) rest)
     else .block [] [b!"q"] [] (line (b!"for _, _ = range " +++ rel +++ b!" {")) (rowB c) rest)

def sliceVarsB (k : Nat) (xs : List GoExpr) (rest : GoBlk) : GoBlk :=
  match xs with
  | [] => rest
  | x :: xs =>
    .decl false [lenVar k] (idents x) (exprPkgs x)
      (line (b!"len" +++ itoa k +++ b!" = len(" +++ goText x +++ b!") // length of slice #" +++ itoa k +++
        b!" to be unnested"))
      (.decl false [posVar k] (if k = 1 then [b!"nstatic"] else [posVar (k - 1), lenVar (k - 1)]) []
        (line (b!"pos" +++ itoa k +++ b!" = " +++
          (if k = 1 then b!"nstatic" else b!"pos" +++ itoa (k - 1) +++ b!" + len" +++ itoa (k - 1)) +++
          b!" // starting position of slice #" +++ itoa k +++ b!" parameters"))
        (sliceVarsB (k + 1) xs rest))

def sumVars : Nat → List GoExpr → List Bytes
  | _, [] => []
  | k, _ :: xs => lenVar k :: sumVars (k + 1) xs

def sliceLoopsB (k : Nat) (xs : List GoExpr) (rest : GoBlk) : GoBlk :=
  match xs with
  | [] => rest
  | x :: xs =>
    .block [b!"i"] [lenVar k] [] (line (b!"for i := 0; i < len" +++ itoa k +++ b!"; i++ {"))
      (.stmt ([b!"params", posVar k, b!"i"] ++ idents x) (exprPkgs x)
        (line (b!"params[pos" +++ itoa k +++ b!"+i] = " +++ goText x +++ b!"[i]")) .nil)
      (sliceLoopsB (k + 1) xs rest)

def slicesB (q : Query) (c : Code) (rest : GoBlk) : GoBlk :=
  .decl false [b!"nstatic"] [] []
    (line b!"var (" +++ line (b!"nstatic = " +++ intText c.g.num +++ b!" // number of static parameters"))
    (sliceVarsB 1 c.g.slices
      (.stmt [] [] (line b!")")
        (declB q c
          (.decl true [b!"params"] (b!"nstatic" :: sumVars 1 c.g.slices) []
            (line (b!"params := make([]interface{}, nstatic" +++ sliceSum 1 c.g.slices +++ b!")"))
            (assignsB [b!"params"] [] c.args (sliceLoopsB 1 c.g.slices rest))))))

def filteredB (q : Query) (f : Bytes) (c : Code) (rest : GoBlk) : GoBlk :=
  declB q c
    (.decl true [b!"filterString", b!"params"] [b!"q"] []
      (line (b!"filterString, params := q." +++ f +++ b!".ToSQL(" +++ itoa c.args.length +++ b!")"))
      (.stmt [b!"queryString", b!"filterString"] []
        (line (b!"queryString += filterString" +++ (if c.sql.closeFilter then b!" + `)`" else [])))
        (tailB c rest)))

def queryStringB (q : Query) (c : Code) (rest : GoBlk) : GoBlk :=
  if isInsertOrUpdateSlice q then batchB q c rest
  else if c.g.slices.length > 0 then slicesB q c rest
  else
    match q.filter with
    | some f => filteredB q f c rest
    | none => declB q c rest

/-! ### The call and what follows -/

/-- The variables of the arguments of the call. -/
def inputVars (conf : PrintConf) (q : Query) (c : Code) : List Bytes :=
  (if conf.withContext then [b!"ctx"] else if q.context.isSome then [b!"q"] else []) ++ [b!"queryString"] ++
    (if c.g.slices.length > 0 ∨ q.filter.isSome ∨ (isInsertOrUpdateSlice q ∧ c.args.length > 0) then [b!"params"]
     else c.args.flatMap idents)

def inputPkgs (q : Query) (c : Code) : List Bytes :=
  if c.g.slices.length > 0 ∨ q.filter.isSome ∨ (isInsertOrUpdateSlice q ∧ c.args.length > 0) then []
  else c.args.flatMap exprPkgs

def connVars (conf : PrintConf) (q : Query) (c : Code) : List Bytes := b!"c" :: inputVars conf q c

def outVars (q : Query) (t : TargetInfo) : List Bytes := (outputArgs q t).flatMap idents
def outPkgs (q : Query) (t : TargetInfo) : List Bytes := (outputArgs q t).flatMap exprPkgs

def opVars (q : Query) (t : TargetInfo) : Op → List Bytes
  | .rowScan => b!"row" :: outVars q t
  | .rowsScan => b!"rows" :: outVars q t
  | .visit => idents (outputRoot q) ++ [b!"v"]
  | .rowsErr => [b!"rows"]
  | .rowsAffected => [b!"res"]
  | .exec | .query => []

def opPkgs (q : Query) (t : TargetInfo) : Op → List Bytes
  | .rowScan | .rowsScan => outPkgs q t
  | _ => []

def errVars (q : Query) (t : TargetInfo) : ErrExpr → List Bytes
  | .nil => []
  | .err => [b!"err"]
  | .op o => opVars q t o

def errPkgs (q : Query) (t : TargetInfo) : ErrExpr → List Bytes
  | .op o => opPkgs q t o
  | _ => []

def retVars (q : Query) (t : TargetInfo) : Ret → List Bytes
  | .plain e => errVars q t e
  | .handle _ e => b!"q" :: errVars q t e
  | .handleInfo .. => [b!"q", b!"err", b!"queryString"]

def retPkgs (q : Query) (t : TargetInfo) : Ret → List Bytes
  | .plain e | .handle _ e => errPkgs q t e
  | .handleInfo .. => [b!"gosql"]

def retB (q : Query) (t : TargetInfo) (r : Ret) (rest : GoBlk) : GoBlk :=
  .ret (retVars q t r) (retPkgs q t r) (retText q t r) rest

def typePkgs (s : List Imp) (isImported : Bool) (path : Bytes) : List Bytes := if isImported then [pkgName s path] else []

def ptrPkgs (s : List Imp) (p : PtrInit) : List Bytes :=
  match p.getLast? with
  | none => []
  | some n => typePkgs s n.isImported n.typePkgPath

def ptrsB (s : List Imp) (q : Query) (ps : List PtrInit) (rest : GoBlk) : GoBlk :=
  if ps.length = 0 then rest
  else .stmt (idents (outputVar q)) (ps.flatMap (ptrPkgs s)) (ps.flatMap (ptrInitText s q)) rest

def initB (s : List Imp) (q : Query) (t : TargetInfo) (rest : GoBlk) : GoBlk :=
  let rest := ptrsB s q (fieldInits q t) rest
  let ps := typePkgs s (outputType q).base.isImported (outputType q).base.pkgPath
  match rootInit q t with
  | .none => rest
  | .newRoot => .stmt (idents (outputRoot q)) ps (rootInitText s q t) rest
  | .newVar => .decl true (idents (outputVar q)) [] ps (rootInitText s q t) rest
  | .declVar => .decl false [b!"v"] [] ps (rootInitText s q t) rest

def callB (conf : PrintConf) (q : Query) (t : TargetInfo) (c : Code) (o : Op) (rest : GoBlk) : GoBlk :=
  match o with
  | .exec => .decl true [if q.rowsAffected.isSome then b!"res" else b!"_", b!"err"] (connVars conf q c) (inputPkgs q c)
      (callText conf q t c .exec) rest
  | .rowsAffected => .decl true [b!"i64", b!"err"] [b!"res"] [] (callText conf q t c .rowsAffected) rest
  | .query => .decl true [b!"rows", b!"err"] (connVars conf q c) (inputPkgs q c) (callText conf q t c .query) rest
  | o => .decl true [b!"err"] (opVars q t o) (opPkgs q t o) (callText conf q t c o) rest

/-- A statement; `init` is what `Instr.init` stands for. -/
def instrB (conf : PrintConf) (init : GoBlk → GoBlk) (q : Query) (t : TargetInfo) (c : Code) (i : Instr)
    (rest : GoBlk) : GoBlk :=
  match i with
  | .call o => callB conf q t c o rest
  | .ifErr r => .block [] [b!"err"] [] (line b!"if err != nil {") (retB q t r .nil) rest
  | .ifInit e r =>
    .block [b!"err"] (errVars q t e) (errPkgs q t e) (line (b!"if err := " +++ errText q t e +++ b!"; err != nil {"))
      (.stmt [b!"err"] [] [] (retB q t r .nil)) rest
  | .deferClose => .stmt [b!"rows"] [] (line b!"defer rows.Close()") rest
  | .init => init rest
  | .afterScan => .stmt (idents (outputVar q)) [] (line (goText (outputVar q) +++ b!".AfterScan()")) rest
  | .keep =>
    if keepOf q t = .input then .stmt [b!"i"] [] (line b!"i += 1") rest
    else .stmt ((if hasOutput q t then idents (outputRoot q) else []) ++ [b!"v"]) []
      (line (rootText q t +++ b!" = append(" +++ rootText q t +++ b!", v)")) rest
  | .setAffected f k => .stmt [b!"q", b!"i64"] []
      (line (b!"q." +++ f +++ b!" = " +++ (match k with | none => b!"i64" | some k => Postgres.kindName k +++ b!"(i64)"))) rest
  | .ret r => retB q t r rest

def instrsB (conf : PrintConf) (init : GoBlk → GoBlk) (q : Query) (t : TargetInfo) (c : Code) (l : List Instr)
    (rest : GoBlk) : GoBlk :=
  l.foldr (instrB conf init q t c) rest

def outerInitB (s : List Imp) (q : Query) (t : TargetInfo) (rest : GoBlk) : GoBlk :=
  if callOf q = .rows then
    if keepOf q t = .input then .decl true [b!"i"] [] [] (line b!"i := 0") rest else rest
  else initB s q t rest

def goStmtB (conf : PrintConf) (s : List Imp) (q : Query) (t : TargetInfo) (c : Code) (x : GoStmt) (rest : GoBlk) :
    GoBlk :=
  match x with
  | .one i => instrB conf (outerInitB s q t) q t c i rest
  | .loop b => .block [] [b!"rows"] [] (line b!"for rows.Next() {") (instrsB conf (initB s q t) q t c b .nil) rest

def resultB (conf : PrintConf) (s : List Imp) (q : Query) (t : TargetInfo) (c : Code) : GoBlk :=
  (resultStmts q t).foldr (goStmtB conf s q t c) .nil

def fallbackB (l : Option LimitField) (rest : GoBlk) : GoBlk :=
  match l with
  | none => rest
  | some l => if l.value > 0 ∧ l.name.length > 0 then .stmt [b!"q"] [] (fallbackText (some l)) rest else rest

def filterParamsB (q : Query) (c : Code) (rest : GoBlk) : GoBlk :=
  if q.filter.isSome ∧ q.kind = .update then
    .stmt (b!"params" :: c.args.flatMap idents) (c.args.flatMap exprPkgs) (filterParamsText q c) rest
  else rest

def queryRowB (conf : PrintConf) (q : Query) (c : Code) (rest : GoBlk) : GoBlk :=
  if callOf q = .row then .decl true [b!"row"] (connVars conf q c) (inputPkgs q c) (rowText conf q c) rest else rest

/-- The body of the method. -/
def methodB (conf : PrintConf) (s : List Imp) (q : Query) (t : TargetInfo) (c : Code) : GoBlk :=
  queryStringB q c (fallbackB q.limit (fallbackB q.offset (filterParamsB q c (queryRowB conf q c (resultB conf s q t c)))))

/-- Its parameters, with the receiver. -/
def methodParams (conf : PrintConf) : List Bytes := [b!"q", b!"c"] ++ (if conf.withContext then [b!"ctx"] else [])

end Verif.Generator.Scoped
