import Verif.Generator.Quals
import Verif.Generator.Errors

/-
The text of a generated file: /repo/internal/generator/generator.go:31-58, 180-251, 720-933, 1431-2040,
2094-2246.

The printers, github.com/frk/ast/sqlang and github.com/frk/ast/golang, are not part of /repo.  The text of a
node is the one it has in the files of /repo/internal/testdata/generator; nodes that do not occur there are
written in PostgreSQL's syntax.  Only the characters that are not blanks are meant: see `squeeze`.  The
imports are in the order in which go/format leaves them (/repo/internal/command/command.go:144).
-/
namespace Verif.Generator.Print
open Verif.Analysis Verif.Postgres

/-! ### Texts -/

/-- The concatenation of texts, nested to the right so that it is quick to evaluate. -/
local infixr:65 " +++ " => List.append (α := Char)

/-- The texts with `sep` between them. -/
def sepBy (sep : Bytes) : List Bytes → Bytes
  | [] => []
  | [x] => x
  | x :: xs => x +++ sep +++ sepBy sep xs

def commas (l : List Bytes) : Bytes := sepBy b!", " l

/-- `lead x`, if there is something to be led. -/
def clause (lead : Bytes) (x : Option Bytes) : Bytes :=
  match x with
  | none => []
  | some x => b!" " +++ lead +++ b!" " +++ x

/-- `some` of a text if the list is not empty. -/
def ifAny {α : Type} (l : List α) (f : List α → Bytes) : Option Bytes := if l.length = 0 then none else some (f l)

def intText (n : Int) : Bytes := if n < 0 then '-' :: itoa n.natAbs else itoa n.toNat

/-! ### SQL -/

/-- SQL.Name. -/
def quoted (n : Bytes) : Bytes := b!"\"" +++ n +++ b!"\""

/-- SQL.ColumnReference. -/
def colText (c : ColIdent) : Bytes :=
  (if c.qualifier.length > 0 then c.qualifier +++ b!"." else []) +++ quoted c.name

/-- SQL.Ident. -/
def relText (r : RelIdent) : Bytes :=
  (if r.qualifier.length > 0 then r.qualifier +++ b!"." else []) +++ quoted r.name +++
    (if r.alias.length > 0 then b!" AS " +++ r.alias else [])

/-- SQL.OrdinalParameterSpec, and generator.go:1359-1366. -/
def slotText : Slot → Bytes
  | .num n => '$' :: intText n
  | .slice k => b!"` + gosql.InValueList(len" +++ itoa k +++ b!", pos" +++ itoa k +++ b!") + `"

def quantText : Quant → Bytes
  | .any => b!"ANY"
  | .some => b!"SOME"
  | .all => b!"ALL"

section
/- `f` is the text of a value given at run time. -/
variable {α : Type} (f : α → Bytes)

def valText : VExpr α → Bytes
  | .default => b!"DEFAULT"
  | .param a => f a
  | .col c => colText c
  | .xcol n => b!"x." +++ quoted n
  | .lit s => s
  | .cast x t => valText x +++ b!"::" +++ t
  | .nullif x y => b!"NULLIF(" +++ valText x +++ b!", " +++ valText y +++ b!")"
  | .coalesce x y => b!"COALESCE(" +++ valText x +++ b!", " +++ valText y +++ b!")"
  | .call fn x => fn +++ b!"(" +++ valText x +++ b!")"
  | .quantified q x => quantText q +++ b!"(" +++ valText x +++ b!")"
  | .absent => []

def notText (not : Bool) : Bytes := if not then b!"NOT " else []

def binText : BinOp → Bytes
  | .eq => b!"="
  | .ne => b!"<>"
  | .ne2 => b!"!="
  | .lt => b!"<"
  | .gt => b!">"
  | .le => b!"<="
  | .ge => b!">="
  | .matches => b!"~"
  | .matchesCI => b!"~*"
  | .notMatches => b!"!~"
  | .notMatchesCI => b!"!~*"
  | .like n => notText n +++ b!"LIKE"
  | .ilike n => notText n +++ b!"ILIKE"
  | .similar n => notText n +++ b!"SIMILAR TO"
  | .distinct n => b!"IS " +++ notText n +++ b!"DISTINCT FROM"

def truthText : Truth → Bytes
  | .unknown => b!"UNKNOWN"
  | .true => b!"TRUE"
  | .false => b!"FALSE"

def linkText : Link → Bytes
  | .initial => []
  | .and => b!" AND "
  | .or => b!" OR "

mutual
def condText : BExpr α → Bytes
  | .binary op l r => valText f l +++ b!" " +++ binText op +++ b!" " +++ valText f r
  | .inList n x a => valText f x +++ b!" " +++ notText n +++ b!"IN (" +++ f a +++ b!")"
  | .truth n t x => valText f x +++ b!" IS " +++ notText n +++ truthText t
  | .null n x => valText f x +++ b!" IS " +++ notText n +++ b!"NULL"
  | .between x lo hi => valText f x +++ b!" BETWEEN " +++ valText f lo +++ b!" AND " +++ valText f hi
  | .bare x => valText f x
  | .group l => b!"(" +++ condsText l +++ b!")"
def condsText : BList α → Bytes
  | .nil => []
  | .cons k x rest => linkText k +++ condText x +++ condsText rest
end

def joinText : Option JoinType → Bytes
  | none => []
  | some .cross => b!"CROSS"
  | some .inner => b!"INNER"
  | some .left => b!"LEFT"
  | some .right => b!"RIGHT"
  | some .full => b!"FULL"

def isNil {α : Type} : BList α → Bool
  | .nil => true
  | _ => false

def tableJoinText (j : TableJoin α) : Bytes :=
  joinText j.type +++ b!" JOIN " +++ relText j.rel +++
    (if isNil j.cond then [] else b!" ON " +++ condsText f j.cond)

def tableText : TableExpr α → Bytes
  | .rel r => relText r
  | .join j => tableJoinText f j
  | .values => b!"(VALUES"

def limitText : LimitVal α → Option Bytes
  | .none => none
  | .int n => some (itoa n)
  | .param a => some (f a)

def orderText (o : OrderBy) : Bytes :=
  colText o.column +++ (if o.desc then b!" DESC" else b!" ASC") +++
    (if o.nullsFirst then b!" NULLS FIRST" else b!" NULLS LAST")

def targetText : ConflictTarget → Bytes
  | .index e p => b!"(" +++ e +++ b!")" +++ (if p.length > 0 then b!" WHERE " +++ p else [])
  | .constraint n => b!"ON CONSTRAINT " +++ quoted n

/-- SQL.OnConflictClause. -/
def conflictText (c : ConflictClause) : Bytes :=
  (match c.target with | none => [] | some t => targetText t +++ b!" ") +++
    (if c.update.length = 0 then b!"DO NOTHING"
     else b!"DO UPDATE SET " +++ commas (c.update.map fun n => quoted n +++ b!" = EXCLUDED." +++ quoted n))

def returningText (r : List (VExpr α)) : Bytes :=
  clause b!"RETURNING" (ifAny r fun l => commas (l.map (valText f)))

def whereText (w : Option (BList α)) : Bytes := clause b!"WHERE" (w.map (condsText f))

def namesText (l : List Bytes) : Bytes := b!"(" +++ commas (l.map quoted) +++ b!")"

def overridingText : Overriding → Bytes
  | .system => b!"SYSTEM"
  | .user => b!"USER"

/-- The clauses after the table of a SELECT. -/
def selectTail (joins : List (TableJoin α)) (wher : Option (BList α)) (order : List OrderBy)
    (limit offset : LimitVal α) : Bytes :=
  joins.flatMap (fun j => b!" " +++ tableJoinText f j) +++ whereText f wher +++
    clause b!"ORDER BY" (ifAny order fun l => commas (l.map orderText)) +++
    clause b!"LIMIT" (limitText f limit) +++ clause b!"OFFSET" (limitText f offset)

def stmtText : Stmt α → Bytes
  | .insert t cs o vs c r =>
    b!"INSERT INTO " +++ relText t +++ b!" " +++ namesText cs +++
      (match o with | none => [] | some o => b!" OVERRIDING " +++ overridingText o +++ b!" VALUE") +++
      b!" VALUES " +++ (match vs with | none => [] | some vs => b!"(" +++ commas (vs.map (valText f)) +++ b!")") +++
      clause b!"ON CONFLICT" (c.map conflictText) +++ returningText f r
  | .update t cs vs fr w r =>
    b!"UPDATE " +++ relText t +++ b!" SET " +++ namesText cs +++ b!" = (" +++ commas (vs.map (valText f)) +++ b!")" +++
      clause b!"FROM" (ifAny fr fun l => sepBy b!" " (l.map (tableText f))) +++ whereText f w +++ returningText f r
  | .select cs t js w o l k =>
    b!"SELECT " +++ commas (cs.map (valText f)) +++ b!" FROM " +++ relText t +++ selectTail f js w o l k
  | .count t js w o k => b!"SELECT COUNT(*) FROM " +++ relText t +++ selectTail f js w o .none k
  | .exists_ n open_ t js w o l k =>
    b!"SELECT " +++ notText n +++ b!"EXISTS(SELECT 1 FROM " +++ relText t +++ selectTail f js w o l k +++
      (if open_ then [] else b!")")
  | .delete t us w r =>
    b!"DELETE FROM " +++ relText t +++
      clause b!"USING" (ifAny us fun l => sepBy b!" " (l.map (tableText f))) +++ whereText f w +++ returningText f r

/-- Nothing if the statement has no tail. -/
def tailText : Tail α → Option Bytes
  | .none => none
  | .insert c r => some (clause b!"ON CONFLICT" (c.map conflictText) +++ returningText f r)
  | .update a w r =>
    some ((match a with | none => [] | some cs => b!" ) AS x " +++ namesText cs) +++ whereText f w +++
      returningText f r)

end

/-! ### Go -/

/-- The options of the configuration that show in the text: MethodName, MethodArgumentType,
MethodWithContext. -/
structure PrintConf where
  method : Bytes := b!"Exec"
  argPath : Bytes := gosqlPath
  argPkg : Bytes := b!"gosql"
  argType : Bytes := b!"Conn"
  argPtr : Bool := false
  withContext : Bool := false
deriving Repr, DecidableEq

def PrintConf.methodConf (c : PrintConf) : MethodConf :=
  { argPath := c.argPath, argName := c.argPkg, withContext := c.withContext }

def goText : GoExpr → Bytes
  | .ident n => n
  | .sel x n => goText x +++ b!"." +++ n
  | .index x i => goText x +++ b!"[" +++ goText i +++ b!"]"
  | .addr x => b!"&" +++ goText x
  | .conv fn x => b!"pgsql." +++ fn +++ b!"(" +++ goText x +++ b!")"

/-- GO.ArgsList; `many` is OnePerLine: the last argument is followed by a comma. -/
def argsText (many : Bool) (l : List Bytes) : Bytes :=
  b!"(" +++ commas l +++ (if many then b!"," else []) +++ b!")"

/-- The name that a package has in the file. -/
def pkgName (s : List Imp) (path : Bytes) : Bytes :=
  match s.find? fun i => i.path = path with
  | some i => i.name
  | none => []

/-- GO.QualifiedIdent or GO.Ident. -/
def typeText (s : List Imp) (isImported : Bool) (path name : Bytes) : Bytes :=
  if isImported then pkgName s path +++ b!"." +++ name else name

/-- A line. -/
def line (x : Bytes) : Bytes := x +++ b!"\n"

def rawText (x : Bytes) : Bytes := b!"`" +++ x +++ b!"`"

/-- generator.go:2315-2317 canDeclareConst. -/
def canDeclareConst (q : Query) (c : Code) : Bool :=
  q.filter.isNone && c.g.slices.length = 0 && !isInsertOrUpdateSlice q

/-- generator.go:1431-1441. -/
def declText (q : Query) (c : Code) : Bytes :=
  line ((if canDeclareConst q c then b!"const" else b!"var") +++ b!" queryString = " +++
    rawText (stmtText slotText c.sql.stmt) +++ b!" // `")

/-- generator.go:1586-1591, 1734-1741. -/
def tailLine (c : Code) : Bytes :=
  match tailText slotText c.sql.tail with
  | none => []
  | some t => line (b!"queryString += " +++ rawText (b!" " +++ t) +++ b!" // `")

/-- generator.go:1522-1561: the text of one value of a row; `k` is the position of its parameter. -/
def rowValText (sep : Bytes) (k : Nat) : VExpr Slot → Bytes
  | .default => rawText (sep +++ b!"DEFAULT")
  | v =>
    let p := b!" + gosql.OrdinalParameters[pos+" +++ itoa k +++ b!"]"
    match v with
    | .nullif _ e => rawText (sep +++ b!"NULLIF(") +++ p +++ b!" + " +++ rawText (b!", " +++ valText slotText e +++ b!")")
    | .cast (.nullif _ e) t =>
      rawText (sep +++ b!"NULLIF(") +++ p +++ b!" + " +++ rawText (b!", " +++ valText slotText e +++ b!")::" +++ t)
    | .cast _ t => rawText sep +++ p +++ b!" + " +++ rawText (b!"::" +++ t)
    | _ => rawText sep +++ p

/-- generator.go:1514-1567: the operands; `k` is `i - defaultCount`. -/
def rowTexts (first : Bool) (k : Nat) : List (VExpr Slot) → List Bytes
  | [] => [rawText b!"),"]
  | v :: vs =>
    rowValText (if first then b!"(" else b!", ") k v ::
      rowTexts false (if isDefault v then k else k + 1) vs

/-- The statements `pre[i] = arg`, from `i` on. -/
def assignTexts (pre : Bytes) : Nat → List GoExpr → Bytes
  | _, [] => []
  | i, a :: as => line (b!"params[" +++ pre +++ itoa i +++ b!"] = " +++ goText a) +++ assignTexts pre (i + 1) as

/-- generator.go:1444-1594. -/
def batchText (q : Query) (c : Code) : Bytes :=
  let rel := b!"q." +++ q.rel.fieldName
  let n := itoa c.args.length
  declText q c +++
    (if c.args.length > 0 then
       line (b!"params := make([]interface{}, len(" +++ rel +++ b!")*" +++ n +++ b!")") +++
         line (b!"for i, v := range " +++ rel +++ b!" {") +++ line (b!"pos := i * " +++ n) +++
         assignTexts b!"pos+" 0 c.args
     else line (b!"for _, _ = range " +++ rel +++ b!" {")) +++
    line (b!"queryString += " +++ sepBy b!" +\n" (rowTexts true 0 c.rowVals)) +++ line b!"}" +++
    line b!"queryString = queryString[:len(queryString)-1]" +++ tailLine c

/-- generator.go:1611-1635: the variables of the slices, from the k-th on. -/
def sliceVars : Nat → List GoExpr → Bytes
  | _, [] => []
  | k, x :: xs =>
    line (b!"len" +++ itoa k +++ b!" = len(" +++ goText x +++ b!") // length of slice #" +++ itoa k +++
      b!" to be unnested") +++
    line (b!"pos" +++ itoa k +++ b!" = " +++
      (if k = 1 then b!"nstatic" else b!"pos" +++ itoa (k - 1) +++ b!" + len" +++ itoa (k - 1)) +++
      b!" // starting position of slice #" +++ itoa k +++ b!" parameters") +++
    sliceVars (k + 1) xs

/-- generator.go:1646-1652. -/
def sliceSum : Nat → List GoExpr → Bytes
  | _, [] => []
  | k, _ :: xs => b!"+len" +++ itoa k +++ sliceSum (k + 1) xs

/-- generator.go:1671-1692. -/
def sliceLoops : Nat → List GoExpr → Bytes
  | _, [] => []
  | k, x :: xs =>
    line (b!"for i := 0; i < len" +++ itoa k +++ b!"; i++ {") +++
    line (b!"params[pos" +++ itoa k +++ b!"+i] = " +++ goText x +++ b!"[i]") +++ line b!"}" +++
    sliceLoops (k + 1) xs

/-- generator.go:1597-1696. -/
def sliceArgsText (q : Query) (c : Code) : Bytes :=
  line b!"var (" +++ line (b!"nstatic = " +++ intText c.g.num +++ b!" // number of static parameters") +++
    sliceVars 1 c.g.slices +++ line b!")" +++ declText q c +++
    line (b!"params := make([]interface{}, nstatic" +++ sliceSum 1 c.g.slices +++ b!")") +++
    assignTexts [] 0 c.args +++ sliceLoops 1 c.g.slices

/-- generator.go:1699-1745. -/
def filteredText (q : Query) (f : Bytes) (c : Code) : Bytes :=
  declText q c +++
    line (b!"filterString, params := q." +++ f +++ b!".ToSQL(" +++ itoa c.args.length +++ b!")") +++
    line (b!"queryString += filterString" +++ (if c.sql.closeFilter then b!" + `)`" else [])) +++ tailLine c

/-- generator.go:194-202. -/
def queryStringText (q : Query) (c : Code) : Bytes :=
  if isInsertOrUpdateSlice q then batchText q c
  else if c.g.slices.length > 0 then sliceArgsText q c
  else
    match q.filter with
    | some f => filteredText q f c
    | none => declText q c

/-- generator.go:593-604, 606-617. -/
def fallbackText : Option LimitField → Bytes
  | none => []
  | some l =>
    if l.value > 0 ∧ l.name.length > 0 then
      line (b!"if q." +++ l.name +++ b!" == 0 {") +++ line (b!"q." +++ l.name +++ b!" = " +++ itoa l.value) +++ line b!"}"
    else []

/-- generator.go:1747-1772. -/
def filterParamsText (q : Query) (c : Code) : Bytes :=
  if q.filter.isSome ∧ q.kind = .update then
    line (b!"params = append([]interface{}{" +++ c.args.flatMap (fun a => goText a +++ b!",\n") +++ b!"}, params...)")
  else []

/-- generator.go:2195-2224 makeInputArgsList. -/
def inputText (conf : PrintConf) (q : Query) (c : Code) : Bytes :=
  let pre := (connCall conf.withContext q).2
  if c.g.slices.length > 0 ∨ q.filter.isSome ∨ (isInsertOrUpdateSlice q ∧ c.args.length > 0) then
    argsText false (pre ++ [b!"params..."])
  else
    let l := pre ++ c.args.map goText
    argsText (l.length > 3) l

/-- generator.go:2227-2233 makeOutputArgsList. -/
def outputText (q : Query) (t : TargetInfo) : Bytes :=
  argsText ((outputArgs q t).length > 2) ((outputArgs q t).map goText)

/-- generator.go:1775-1841: the call. -/
def connText (conf : PrintConf) (q : Query) (c : Code) : Bytes :=
  b!"c." +++ (connCall conf.withContext q).1 +++ inputText conf q c

/-- generator.go:2000-2004. -/
def visitText (q : Query) : Bytes :=
  goText (outputRoot q) +++
    (if (outputType q).iterMethod.length > 0 then b!"." +++ (outputType q).iterMethod else []) +++ b!"(v)"

def opText (q : Query) (t : TargetInfo) : Op → Bytes
  | .rowScan => b!"row.Scan" +++ outputText q t
  | .rowsScan => b!"rows.Scan" +++ outputText q t
  | .visit => visitText q
  | .rowsErr => b!"rows.Err()"
  | .rowsAffected => b!"res.RowsAffected()"
  | .exec => []
  | .query => []

def errText (q : Query) (t : TargetInfo) : ErrExpr → Bytes
  | .nil => b!"nil"
  | .err => b!"err"
  | .op o => opText q t o

def stringLit (s : Bytes) : Bytes := b!"\"" +++ s +++ b!"\""

/-- generator.go:2138-2191. -/
def retText (q : Query) (t : TargetInfo) : Ret → Bytes
  | .plain e => line (b!"return " +++ errText q t e)
  | .handle f e => line (b!"return q." +++ f +++ b!".HandleError(" +++ errText q t e +++ b!")")
  | .handleInfo f k n =>
    line (b!"return q." +++ f +++ b!".HandleErrorInfo(&gosql.ErrorInfo{Error: err, QueryString: queryString, QueryKind: " +++
      stringLit k +++ b!", QueryName: " +++ stringLit n +++ b!", QueryValue: q})")

/-- generator.go:478-514. -/
def rootInitText (s : List Imp) (q : Query) (t : TargetInfo) : Bytes :=
  let b := (outputType q).base
  let ty := typeText s b.isImported b.pkgPath b.name
  match rootInit q t with
  | .none => []
  | .newRoot => line (goText (outputRoot q) +++ b!" = new(" +++ ty +++ b!")")
  | .newVar => line (goText (outputVar q) +++ b!" := new(" +++ ty +++ b!")")
  | .declVar => line (b!"var v " +++ ty)

/-- generator.go:535-547. -/
def ptrInitText (s : List Imp) (q : Query) (p : PtrInit) : Bytes :=
  match p.getLast? with
  | none => []
  | some n =>
    line (goText (p.foldl (fun x n => .sel x n.name) (outputVar q)) +++ b!" = new(" +++
      typeText s n.isImported n.typePkgPath n.typeName +++ b!")")

def initText (s : List Imp) (q : Query) (t : TargetInfo) : Bytes :=
  rootInitText s q t +++ (fieldInits q t).flatMap (ptrInitText s q)

def callText (conf : PrintConf) (q : Query) (t : TargetInfo) (c : Code) : Op → Bytes
  | .exec => line ((if q.rowsAffected.isSome then b!"res" else b!"_") +++ b!", err := " +++ connText conf q c)
  | .rowsAffected => line b!"i64, err := res.RowsAffected()"
  | .rowScan => line (b!"err := " +++ opText q t .rowScan)
  | .query => line (b!"rows, err := " +++ connText conf q c)
  | o => line (b!"err := " +++ opText q t o)

/-- The destination of `append`, nothing if it is not set: generator.go:443, 464. -/
def rootText (q : Query) (t : TargetInfo) : Bytes := if hasOutput q t then goText (outputRoot q) else []

/-- A statement; `init` is the text of `Instr.init`. -/
def instrText (conf : PrintConf) (init : Bytes) (q : Query) (t : TargetInfo) (c : Code) : Instr → Bytes
  | .call o => callText conf q t c o
  | .ifErr r => line b!"if err != nil {" +++ retText q t r +++ line b!"}"
  | .ifInit e r => line (b!"if err := " +++ errText q t e +++ b!"; err != nil {") +++ retText q t r +++ line b!"}"
  | .deferClose => line b!"defer rows.Close()"
  | .init => init
  | .afterScan => line (goText (outputVar q) +++ b!".AfterScan()")
  | .keep =>
    if keepOf q t = .input then line b!"i += 1"
    else line (rootText q t +++ b!" = append(" +++ rootText q t +++ b!", v)")
  | .setAffected f k =>
    line (b!"q." +++ f +++ b!" = " +++ (match k with | none => b!"i64" | some k => Postgres.kindName k +++ b!"(i64)"))
  | .ret r => retText q t r

/-- What `Instr.init` is outside of the loop: generator.go:1904, 1959-1964. -/
def outerInit (s : List Imp) (q : Query) (t : TargetInfo) : Bytes :=
  if callOf q = .rows then (if keepOf q t = .input then line b!"i := 0" else []) else initText s q t

def goStmtText (conf : PrintConf) (s : List Imp) (q : Query) (t : TargetInfo) (c : Code) : GoStmt → Bytes
  | .one i => instrText conf (outerInit s q t) q t c i
  | .loop b =>
    line b!"for rows.Next() {" +++ b.flatMap (instrText conf (initText s q t) q t c) +++ line b!"}"

/-- generator.go:1806-1809: QueryRow yields no error. -/
def rowText (conf : PrintConf) (q : Query) (c : Code) : Bytes :=
  if callOf q = .row then line (b!"row := " +++ connText conf q c) else []

/-- generator.go:227-250. -/
def queryText (conf : PrintConf) (s : List Imp) (q : Query) (t : TargetInfo) (c : Code) : Bytes :=
  line (b!"func (q *" +++ q.typeName +++ b!") " +++ conf.method +++ b!"(" +++
      (if conf.withContext then b!"ctx context.Context, " else []) +++ b!"c " +++
      (if conf.argPtr then b!"*" else []) +++ pkgName s conf.argPath +++ b!"." +++ conf.argType +++ b!") error {") +++
    queryStringText q c +++ fallbackText q.limit +++ fallbackText q.offset +++ filterParamsText q c +++
    rowText conf q c +++ (resultStmts q t).flatMap (goStmtText conf s q t c) +++ line b!"}"

/-! ### Filters -/

/-- generator.go:744-769. -/
def entryText (pkgPath : Bytes) (s : List Imp) (v2 : Bool) (e : MapEntry) : Bytes :=
  line (stringLit e.key +++ b!": " +++
    (if v2 then
      b!"{Name: " +++ rawText e.column +++
        (match e.conv with
         | none => []
         | some id => b!", ConvertValue: " +++ typeText s (id.pkgPath ≠ pkgPath) id.pkgPath id.name) +++
        (if e.nullable then b!", IsNULLable: true" else []) +++ b!"}"
     else rawText e.column) +++ b!",")

/-- generator.go:730-785. -/
def mapText (pkgPath : Bytes) (s : List Imp) (fs : FilterStruct) (es : List MapEntry) : Bytes :=
  line (b!"var _" +++ fs.typeName +++ b!"_colmap = map[string]" +++
    (if fs.constructor.2 then pkgName s b!"github.com/frk/gosql/filter" +++ b!".Column" else b!"string") +++ b!"{") +++
  es.flatMap (entryText pkgPath s fs.constructor.2) +++ line b!"}"

/-- generator.go:788-933. -/
def methodText (conf : FilterConf) (fs : FilterStruct) : Method → Bytes
  | .init =>
    line (b!"func (f *" +++ fs.typeName +++ b!") Init() {") +++
    line (b!"f." +++ fs.constructor.1 +++ (if fs.constructor.2 then b!".InitV2(_" else b!".Init(_") +++ fs.typeName +++
      b!"_colmap, " +++ (if fs.textSearch.isSome then rawText (textSearchColumn conf fs) else stringLit []) +++ b!")") +++
    line b!"}"
  | .col n col ty =>
    line (b!"func (f *" +++ fs.typeName +++ b!") " +++ n +++ b!"(op string, val " +++ ty +++ b!") *" +++ fs.typeName +++ b!" {") +++
    line (b!"f." +++ fs.constructor.1 +++ b!".Col(" +++ rawText col +++ b!", op, val)") +++ line b!"return f" +++ line b!"}"
  | .bool n =>
    line (b!"func (f *" +++ fs.typeName +++ b!") " +++ n +++ b!"(nest func(*" +++ fs.typeName +++ b!")) *" +++ fs.typeName +++
      b!" {") +++
    line b!"if nest == nil {" +++ line (b!"f." +++ fs.constructor.1 +++ b!"." +++ n +++ b!"(nil)") +++ line b!"return f" +++
    line b!"}" +++
    line (b!"f." +++ fs.constructor.1 +++ b!"." +++ n +++ b!"(func() {") +++ line b!"nest(f)" +++ line b!"})" +++
    line b!"return f" +++ line b!"}"

/-- generator.go:720-728. -/
def filterText (pkgPath : Bytes) (conf : FilterConf) (s : List Imp) (fs : FilterStruct) (t : TargetInfo) :
    Bytes :=
  mapText pkgPath s fs (columnMap conf fs t) +++
    (filterCode pkgPath conf s fs t).2.flatMap (methodText conf fs)

/-! ### Files -/

def lessText : Bytes → Bytes → Bool
  | [], [] => false
  | [], _ => true
  | _, [] => false
  | a :: as, b :: bs => if a = b then lessText as bs else a.toNat < b.toNat

def insertSpec (x : Spec) : List Spec → List Spec
  | [] => [x]
  | y :: ys => if lessText y.path x.path then y :: insertSpec x ys else x :: y :: ys

/-- go/format sorts the imports of a group by their paths. -/
def sortSpecs : List Spec → List Spec
  | [] => []
  | x :: xs => insertSpec x (sortSpecs xs)

def specText (x : Spec) : Bytes :=
  line ((if x.name.length > 0 then x.name +++ b!" " else []) +++ stringLit x.path)

/-- generator.go:2095-2135, then go/format. -/
def importText (s : List Imp) : Bytes :=
  let l := importDecl s
  if l.length = 0 then [] else
  line b!"import (" +++
    (sortSpecs (l.filter fun x => !isGosql x && !hasDot x)).flatMap specText +++
    (sortSpecs (l.filter fun x => !isGosql x && hasDot x)).flatMap specText +++
    (sortSpecs (l.filter isGosql)).flatMap specText +++ line b!")"

/-- generator.go:31-58 Write. -/
def fileText (pkgPath pkgName : Bytes) (conf : PrintConf) (fconf : FilterConf) (ts : List Source) : Bytes :=
  let s := (writeFile pkgPath conf.methodConf fconf ts).1
  line b!"// DO NOT EDIT. This file was generated by \"github.com/frk/gosql\"." +++
    line (b!"package " +++ pkgName) +++ importText s +++
    ts.flatMap fun
      | .query q t c => queryText conf s q t c
      | .filter fs t => filterText pkgPath fconf s fs t

/-! ### Blanks -/

def isBlank (c : Char) : Bool := c = ' ' || c = '\t' || c = '\n'

def isWord (c : Char) : Bool := c.isAlphanum || c = '_'

/-- The text without blanks, except that one is kept between two words.  `p`: the last character before was
part of a word; `b`: there were blanks after it. -/
def squeezeFrom (p b : Bool) : Bytes → Bytes
  | [] => []
  | c :: cs =>
    if isBlank c then squeezeFrom p true cs
    else if p && b && isWord c then ' ' :: c :: squeezeFrom true false cs
    else c :: squeezeFrom (isWord c) false cs

def squeeze (s : Bytes) : Bytes := squeezeFrom false false s

end Verif.Generator.Print
