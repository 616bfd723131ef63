import Verif.Postgres.Types

/-
The type checker: /repo/internal/postgres/postgres.go.

Simplifications: of an error only its code is modelled.  The results that the checker appends to
`c.res` are returned.
-/
namespace Verif.Postgres
open Verif.Analysis

/-! ### Loading relations -/

/-- The class `\s` of Go's regular expressions. -/
def isRxSpace (c : Char) : Bool := c = ' ' || c = '\t' || c = '\n' || c = '\r' || c = '\u000c'

/-- postgres.go:2088 `(?i:\susing\s)` at the beginning of the text: what follows the match.  (Go also
folds U+017F to `s`.) -/
def usingHere (s : Bytes) : Option Bytes :=
  if s.head?.any isRxSpace && decide (lower ((s.drop 1).take 5) = b!"using") &&
      (s.drop 6).head?.any isRxSpace then some (s.drop 7)
  else none

/-- postgres.go:2093-2096: what follows the first match, the text itself without one. -/
def afterUsing (all : Bytes) : Bytes → Bytes
  | [] => all
  | c :: cs =>
    match usingHere (c :: cs) with
    | some r => r
    | none => afterUsing all cs

/-- The state of the loop of postgres.go:2103-2132. -/
structure IxSt where
  nested : Nat := 0
  quoted : Bool := false
  escaped : Bool := false
deriving Repr, DecidableEq

/-- What one iteration does. -/
inductive IxStep where
  | next (s : IxSt)
  | stop
  | fault
deriving Repr, DecidableEq

/-- One iteration, at a character and what follows it; `s[position+1]` is out of range at the end. -/
def ixStep (st : IxSt) (c : Char) (rest : Bytes) : IxStep :=
  if st.quoted = false then
    if c = '(' then .next { st with nested := st.nested + 1 }
    else if c = ')' then
      if st.nested = 0 then .stop else .next { st with nested := st.nested - 1 }
    else if c = '\'' then .next { st with quoted := true }
    else .next st
  else if c = '\'' then
    match rest with
    | [] => .fault
    | d :: _ =>
      if d = '\'' then .next { st with escaped := true }
      else if st.escaped then .next { st with escaped := false }
      else .next { st with quoted := false }
  else .next st

/-- The loop: the text before the position at which it ends.  Without `break` that is the position of
the last character. -/
def ixLoop (st : IxSt) : Bytes → P Bytes
  | [] => .ok []
  | c :: cs =>
    match ixStep st c cs with
    | .stop => .ok []
    | .fault => .panic
    | .next st' => if cs.length = 0 then .ok [] else (ixLoop st' cs).map (c :: ·)

/-- postgres.go:2092-2135. -/
def parseIndexExpr (s : Bytes) : P Bytes :=
  match firstSplit '(' (afterUsing s s) with
  | none => .ok []
  | some (_, r) => ixLoop {} r

/-- types.go:815-820 of package analysis. -/
def qualifiedName (rid : RelIdent) : Bytes :=
  if rid.qualifier.length > 0 then rid.qualifier ++ b!"." ++ rid.name else rid.name

/-- postgres.go:1858-1886. -/
def loadColumn (cat : Catalog) (rid : RelIdent) (kind : Char) (r : RawCol) : P Column :=
  match cat.type r.typeOid with
  | none => .err .relationColumnUnknownType
  | some t =>
    .ok { num := r.num, name := r.name, typeMod := r.typeMod, hasNotNull := r.hasNotNull
          hasDefault := r.hasDefault, isPrimary := r.isPrimary, type := t
          rel := rid, relKind := kind }

/-- postgres.go:1953-1977. -/
def loadIndex (r : RawIndex) : P Index :=
  (parseIndexExpr r.definition).map fun e =>
    { name := r.name, isUnique := r.isUnique, isPrimary := r.isPrimary, key := r.key
      expression := e, predicate := r.predicate }

/-- All results, or the first failure. -/
def mapP {ε α β : Type} (f : α → Res ε β) : List α → Res ε (List β)
  | [] => .ok []
  | x :: xs => (f x).bind fun y => (mapP f xs).map (y :: ·)

/-- postgres.go:1806-1985. -/
def loadRelation (cat : Catalog) (rid : RelIdent) : P Relation :=
  match List.lookup (qualifiedName rid) cat.rels with
  | none => .err .relationUnknown
  | some r =>
    (mapP (loadColumn cat rid r.relKind) r.columns).bind fun cols =>
    (mapP loadIndex r.indexes).map fun inds =>
      { id := rid, relKind := r.relKind, columns := cols, constraints := r.constraints
        indexes := inds }

/-- postgres.go:96-116 checker. -/
structure Checker where
  cat : Catalog
  rid : RelIdent
  rel : Relation
  relMap : List (Bytes × Relation)
  force : Option ColIdentList := none

/-- postgres.go:2062-2067. -/
def relIdentKey (rid : RelIdent) : Bytes := if rid.alias.length > 0 then rid.alias else rid.name

/-- postgres.go:1780-1796. -/
def loadTarget (cat : Catalog) (rid : RelIdent) : P Checker :=
  (loadRelation cat rid).map fun rel =>
    { cat := cat, rid := rid, rel := rel, relMap := [(relIdentKey rid, rel), ([], rel)] }

/-- postgres.go:1798-1804. -/
def loadJoin (c : Checker) (rid : RelIdent) : P (Checker × Relation) :=
  (loadRelation c.cat rid).map fun rel =>
    ({ c with relMap := (relIdentKey rid, rel) :: c.relMap }, rel)

/-! ### Finding things -/

/-- postgres.go:1546-1553. -/
def findRelColumn (rel : Relation) (name : Bytes) : Option Column :=
  rel.columns.find? fun c => c.name = name

/-- postgres.go:1531-1542. -/
def findColumn (c : Checker) (id : ColIdent) : P Column :=
  match List.lookup id.qualifier c.relMap with
  | none => .err .columnQualifierUnknown
  | some rel =>
    match findRelColumn rel id.name with
    | none => .err .columnUnknown
    | some col => .ok col

/-- The column of the given relation, or errColumnUnknown: postgres.go:328-330, 877-882, 1035-1040,
1114-1119. -/
def relColumn (rel : Relation) (cid : ColIdent) : P Column :=
  match findRelColumn rel cid.name with
  | none => .err .columnUnknown
  | some col => .ok col

/-! ### Type compatibility -/

/-- `compatibility.oid2literal[key][lit]`. -/
def lookupComp (oid : Nat) (typmod1 : Bool) (lit : Bytes) : Option CompEntry :=
  (compTable.find? fun r => r.oid = oid && r.typmod1 = typmod1 && r.lit = lit).map (·.entry)

/-- postgres.go:2018-2026: the key of the second lookup. -/
def salvageOid (cat : Catalog) (t : PgType) (oid : Nat) : Nat :=
  if t.isString then Oid.text
  else if (cat.type t.elem).any PgType.isString then Oid.textArr
  else oid

/-- postgres.go:2006-2032. -/
def typeCompat (cat : Catalog) (ctyp : PgType) (ftyp : TypeInfo) (typmod1 : Bool) :
    Option CompEntry :=
  let lit := genericLiteral ftyp
  let oid := if ctyp.isEnum then Oid.text else ctyp.oid
  match lookupComp oid typmod1 lit with
  | some e => some e
  | none =>
    if ctyp.isString || ctyp.isArray then lookupComp (salvageOid cat ctyp oid) typmod1 lit
    else none

/-- postgres.go:2048-2060; the type of the elements may be missing from the catalog. -/
def isLength1 (cat : Catalog) (col : Column) : P Bool :=
  match if col.type.isArray then cat.type col.type.elem else some col.type with
  | none => .panic
  | some t =>
    .ok (if t.isBitstring then col.typeMod = 1
      else if t.isString then col.typeMod - 4 = 1
      else false)

def isJSONType (t : PgType) : Bool := t.oid = Oid.json || t.oid = Oid.jsonb

/-- postgres.go:1175-1221, 1306-1345, 1423-1463: a column of type json (xml).  `able` is "has the method",
`illegal` the kinds that cannot be encoded. -/
def docConv (able illegal : Bool) (t : TypeInfo) (conv : Bytes) (e : DbErr) : P Bytes :=
  if able then .ok conv
  else if illegal then .err e
  else if isByteSlice t then .ok []
  else if t.is .string then .ok []
  else .ok conv

/-- postgres.go:1347-1350, 1223-1226, 1465-1468: by the table. -/
def tableConv (cat : Catalog) (col : Column) (t : TypeInfo) (pick : CompEntry → Bytes) (e : DbErr) :
    P Bytes :=
  (isLength1 cat col).bind fun typmod1 =>
    match typeCompat cat col.type t typmod1 with
    | some ce => .ok (pick ce)
    | none => .err e

/-- postgres.go:1164-1239. -/
def readConv (cat : Catalog) (f : FieldInfo) (col : Column) : P Bytes :=
  if f.type.kind = .interface && !f.type.hdr.isEmptyInterface then .err .columnFieldTypeRead
  else if implementsScanner f.type then .ok []
  else if isJSONType col.type then
    docConv (implementsJSONUnmarshaler f.type) (isJSONIllegal f.type) f.type b!"JSON"
      .columnFieldTypeRead
  else if f.type.hdr.isEmptyInterface then .ok b!"AnyToEmptyInterface"
  else if col.type.oid = Oid.xml then
    docConv (implementsXMLUnmarshaler f.type) (isXMLIllegal f.type) f.type b!"XML"
      .columnFieldTypeRead
  else tableConv cat col f.type (·.scanner) .columnFieldTypeRead

/-- postgres.go:1301-1362 (after the check of the default) and :1417-1480. -/
def writeConv (cat : Catalog) (f : FieldInfo) (col : Column) : P Bytes :=
  if implementsValuer f.type then .ok []
  else if isJSONType col.type then
    docConv (implementsJSONMarshaler f.type) (isJSONIllegal f.type) f.type b!"JSON"
      .columnFieldTypeWrite
  else if col.type.oid = Oid.xml then
    docConv (implementsXMLMarshaler f.type) (isXMLIllegal f.type) f.type b!"XML"
      .columnFieldTypeWrite
  else tableConv cat col f.type (·.valuer) .columnFieldTypeWrite

/-! ### Fields of records -/

/-- "Not in the force list": postgres.go:1992, 1997, 2002. -/
def unforced (c : Checker) (cid : ColIdent) : Bool := !c.force.any fun l => l.contains cid

/-- postgres.go:1991-1993. -/
def skipInsert (c : Checker) (w : FieldWrite) : Bool :=
  !w.field.mode.canInsert && unforced c w.colIdent
/-- postgres.go:1996-1998. -/
def skipUpdate (c : Checker) (w : FieldWrite) : Bool :=
  !w.field.mode.canUpdate && unforced c w.colIdent
/-- postgres.go:2001-2003. -/
def skipRead (c : Checker) (r : FieldRead) : Bool := r.field.isWriteOnly && unforced c r.colIdent

/-- postgres.go:1155-1263: the read to be appended, if any. -/
def checkRead (c : Checker) (f : FieldInfo) (strict : Bool) : P (List FieldRead) :=
  match findRelColumn c.rel f.colIdent.name with
  | none => if strict then .err .columnUnknown else .ok []
  | some col =>
    (readConv c.cat f col).map fun s =>
      let r : FieldRead :=
        { field := f, column := col, colIdent := { f.colIdent with qualifier := c.rid.alias }
          scanner := s }
      if skipRead c r then [] else [r]

/-- postgres.go:1289-1379. -/
def checkWrite (c : Checker) (idx : Nat) (f : FieldInfo) : P (Option FieldWrite) :=
  match findRelColumn c.rel f.colIdent.name with
  | none => .ok none
  | some col =>
    (refuseIf (f.useDefault && !col.hasDefault) .columnDefaultUnset).bind fun _ =>
    (writeConv c.cat f col).map fun v =>
      some { idx := idx, field := f, column := col
             colIdent := { f.colIdent with qualifier := c.rid.alias }, valuer := v }

/-- postgres.go:1401-1497 with strict = false: the filter to be appended, if any. -/
def checkFieldFilter (c : Checker) (f : FieldInfo) : P (List FieldFilter) :=
  if f.excludeFromFilter then .ok []
  else
    match findRelColumn c.rel f.colIdent.name with
    | none => .ok []
    | some col =>
      (writeConv c.cat f col).map fun v =>
        [{ field := f, column := col, colIdent := { f.colIdent with qualifier := c.rid.alias }
           valuer := v }]

/-! ### Comparisons -/

/-- postgres.go:988-1003, one direction: is there an implicit cast, and the operator on its target? -/
def castOp (cat : Catalog) (name : Bytes) (source target : Nat) : Bool :=
  cat.castContext target source = some 'i' && cat.hasOp ⟨name, target, target⟩

/-- postgres.go:972-1006. -/
def comparable (cat : Catalog) (l r : PgType) (pred : Option Pred) : Bool :=
  l.oid = r.oid ||
    ((l.isString || l.isEnum) && r.oid = Oid.unknown) ||
    cat.hasOp ⟨oprname pred, l.oid, r.oid⟩ ||
    castOp cat (oprname pred) l.oid r.oid || castOp cat (oprname pred) r.oid l.oid

/-- postgres.go:962-970: the type on the right, that of the elements for an array comparison; `none`
is nil. -/
def rhsType (cat : Catalog) (r : Option PgType) (pred : Option Pred) (quant : Option Quant) :
    P (Option PgType) :=
  if predIs Pred.isArray pred || quant.isSome then
    match r with
    | none => .panic
    | some t =>
      if t.isArray then .ok (cat.type t.elem)
      else if predIs Pred.isArray pred then .err .predicateOperandArray
      else .err .predicateOperandQuantifier
  else .ok r

/-- postgres.go:961-1007 typeCheckComparison. -/
def checkComparison (cat : Catalog) (l : PgType) (r : Option PgType) (pred : Option Pred)
    (quant : Option Quant) : P Unit :=
  (rhsType cat r pred quant).bind fun r =>
    match r with
    | none => .panic
    | some t => refuseIf (!comparable cat l t pred) .columnComparison

/-- postgres.go:1499-1521. -/
def checkTypeCoercion (cat : Catalog) (target source : Nat) : Bool :=
  target = source || target = Oid.anyType || source = Oid.unknown ||
    cat.castContext target source = some 'i' || cat.castContext target source = some 'a'

/-- postgres.go:731-733, 841-843: a value with its own conversion counts as a string. -/
def condType (t : TypeInfo) : TypeInfo :=
  if !t.kind.isBasic && t.hdr.isValuer then .leaf { kind := .string } else t

/-- Is `p` applied to a list of values? -/
def isListCond (pred : Option Pred) (quant : Option Quant) : Bool :=
  predIs Pred.isArray pred || quant.isSome

/-- postgres.go:739-752: the type that the field must be compatible with. -/
def condColType (cat : Catalog) (f : FieldConditional) : P PgType :=
  if isListCond f.pred f.quant then
    match (List.lookup f.column.type.oid typeToArray).bind cat.type with
    | some t => .ok t
    | none =>
      if predIs Pred.isArray f.pred then .err .predicateOperandArray
      else .err .predicateOperandQuantifier
  else .ok f.column.type

/-- The loop of postgres.go:763-782 over the operators in the order given. -/
def scanOps (cat : Catalog) (name : Bytes) (left : Nat) (t : TypeInfo) :
    Option CompEntry → List OpKey → Option CompEntry
  | comp, [] => comp
  | comp, k :: ks =>
    if k.name ≠ name ∨ k.left ≠ left then scanOps cat name left t comp ks
    else
      match (cat.type k.right).bind fun rt => typeCompat cat rt t false with
      | none => scanOps cat name left t comp ks
      | some ce =>
        if ce.valuer.length = 0 then some ce
        else scanOps cat name left t (if comp.isNone then some ce else comp) ks

/-- postgres.go:719-789: the converter to be used. -/
def checkFieldCondPlain (cat : Catalog) (f : FieldConditional) : P Bytes :=
  let t := condType f.fieldType
  let coid := if f.column.type.isEnum then Oid.text else f.column.type.oid
  (condColType cat f).bind fun ctyp =>
    (if cat.hasOp ⟨oprname f.pred, coid, coid⟩ then
        (isLength1 cat f.column).map fun typmod1 => typeCompat cat ctyp t typmod1
      else .ok none).bind fun direct =>
      match direct with
      | some ce => .ok ce.valuer
      | none =>
        match scanOps cat (oprname f.pred) coid t none cat.ops with
        | some ce => .ok ce.valuer
        | none => .err .columnFieldComparison

/-- postgres.go:808-828 for one pair of procedures: the types of their arguments. -/
def procPair (cat : Catalog) (f : FieldConditional) (l r : Proc) : P (List (PgType × PgType)) :=
  match cat.type l.retType, cat.type r.retType with
  | some lt, some rt =>
    match checkComparison cat lt (some rt) f.pred f.quant with
    | .ok _ =>
      match cat.type l.argType, cat.type r.argType with
      | some la, some ra => .ok [(la, ra)]
      | _, _ => .ok []
    | .err _ => .ok []
    | .panic => .panic
  | _, _ => .ok []

/-- postgres.go:806-831. -/
def procPairs (cat : Catalog) (f : FieldConditional) (ps : List Proc) : P (List (PgType × PgType)) :=
  (mapP (fun l => (mapP (fun r => procPair cat f l r) ps).map List.flatten) ps).map List.flatten

/-- postgres.go:833-851. -/
def findPair (cat : Catalog) (f : FieldConditional) : List (PgType × PgType) → P Bytes
  | [] => .err .procedureUnknown
  | (l, r) :: ps =>
    if checkTypeCoercion cat l.oid f.column.type.oid then
      match typeCompat cat r (condType f.fieldType) false with
      | some ce => .ok ce.valuer
      | none => findPair cat f ps
    else findPair cat f ps

/-- postgres.go:791-852. -/
def checkFieldCondFunc (cat : Catalog) (f : FieldConditional) : P Bytes :=
  if (cat.procsOf f.func).length = 0 then .err .procedureUnknown
  else (procPairs cat f (cat.procsOf f.func)).bind (findPair cat f)

/-- postgres.go:714-789 typeCheckFieldConditional. -/
def checkFieldCond (cat : Catalog) (f : FieldConditional) : P FieldConditional :=
  (if f.func.length > 0 then checkFieldCondFunc cat f else checkFieldCondPlain cat f).map fun v =>
    { f with valuer := v }

/-- postgres.go:2035-2043; `none` is nil. -/
def typeOfLiteral (cat : Catalog) (lit : Bytes) : P (Option PgType) :=
  match cat.litOid lit with
  | none => .err .predicateLiteralExpr
  | some oid => .ok (cat.type oid)

/-- postgres.go:895-916: the checks of a unary predicate.  `inWhere` is "the condition is a column
directive of a where struct". -/
def checkUnary (c : Checker) (col : Column) (p : Pred) (inWhere : Bool) : P Unit :=
  (refuseIf (p.isBoolean && col.type.oid ≠ Oid.bool) .predicateOperandBool).bind fun _ =>
  refuseIf (p.isNullTest && col.hasNotNull && !(inWhere && c.rel.id ≠ col.rel)) .predicateOperandNull

/-- postgres.go:918-934. -/
def checkRhs (c : Checker) : Rhs → P (Option Column × Option PgType)
  | .none => .ok (none, none)
  | .column cid =>
    if cid.name.length > 0 then (findColumn c cid).map fun col => (some col, some col.type)
    else .ok (none, none)
  | .literal s =>
    if s.length > 0 then (typeOfLiteral c.cat s).map fun t => (none, t) else .ok (none, none)

/-- postgres.go:895-948 once the column on the left is found. -/
def checkColCondOn (c : Checker) (col : Column) (cc : ColCond) (inWhere : Bool) :
    P ColumnConditional :=
  if predIs Pred.isUnary cc.pred then
    match cc.pred with
    | some p =>
      (checkUnary c col p inWhere).map fun _ =>
        { lhs := cc.lhs, lhsColumn := col, rhs := cc.rhs, pred := cc.pred, quant := cc.quant }
    | none => .panic
  else
    (checkRhs c cc.rhs).bind fun r =>
    (checkComparison c.cat col.type r.2 cc.pred cc.quant).map fun _ =>
      { lhs := cc.lhs, lhsColumn := col, rhs := cc.rhs, rhsColumn := r.1, rhsType := r.2
        pred := cc.pred, quant := cc.quant }

/-- postgres.go:875-893: the column on the left, in the given relation or in that of its qualifier. -/
def findLhs (c : Checker) (rel : Option Relation) (cid : ColIdent) : P Column :=
  match rel with
  | some r => relColumn r cid
  | none => findColumn c cid

/-- postgres.go:874-949 typeCheckColumnConditional. -/
def checkColCond (c : Checker) (rel : Option Relation) (cc : ColCond) (inWhere : Bool) :
    P ColumnConditional :=
  (findLhs c rel cc.lhs).bind fun col => checkColCondOn c col cc inWhere

/-! ### Where -/

/-- postgres.go:658-684: error codes of a range bound. -/
def betweenErr : DbErr → DbErr
  | .columnComparison => .betweenColumnComparison
  | .columnFieldComparison => .betweenFieldComparison
  | e => e

def mapErr {α : Type} (f : DbErr → DbErr) : P α → P α
  | .ok a => .ok a
  | .err e => .err (f e)
  | .panic => .panic

/-- NotBetween, NotBetweenSym or NotBetweenAsym: postgres.go:637. -/
def isNotBetween (p : Option Pred) : Bool :=
  p = some .notBetween || p = some .notBetweenSym || p = some .notBetweenAsym

/-- postgres.go:647-686: one bound, compared with `pred`. -/
def checkBound (c : Checker) (col : Column) (wb : BetweenCond) (pred : Pred) : Bound → P RangeBound
  | .column cid =>
    (mapErr betweenErr
      (checkColCondOn c col { lhs := wb.colIdent, rhs := .column cid, pred := some pred } false)).map
        .column
  | .field name type =>
    (mapErr betweenErr
      (checkFieldCond c.cat
        { fieldName := name, fieldType := type, colIdent := wb.colIdent, column := col
          pred := some pred })).map .field

/-- postgres.go:619-697. -/
def checkBetween (c : Checker) (wb : BetweenCond) : P BetweenConditional :=
  (findColumn c wb.colIdent).bind fun col =>
  (checkBound c col wb (if isNotBetween wb.pred then .isLT else .isGTE) wb.lower).bind fun l =>
  (checkBound c col wb (if isNotBetween wb.pred then .isGT else .isLTE) wb.upper).map fun u =>
    { fieldName := wb.name, colIdent := wb.colIdent, column := col, pred := wb.pred
      lower := l, upper := u }

/-- postgres.go:572-595. -/
def checkWhereField (c : Checker) (f : FieldCond) : P FieldConditional :=
  (findColumn c f.colIdent).bind fun col =>
    checkFieldCond c.cat
      { fieldName := f.name, fieldType := f.type, colIdent := f.colIdent, column := col
        pred := f.pred, quant := f.quant, func := f.func }

mutual
/-- postgres.go:544-607 typeCheckWhereItem. -/
def checkWhereItem (c : Checker) : WItem → P Cond
  | .bool b => .ok (.bool b)
  | .nested n items => (checkWhereItems c items).map fun cs => .nested n cs
  | .column cc => (checkColCond c none cc true).map .column
  | .field f => (checkWhereField c f).map .field
  | .between b => (checkBetween c b).map .between
/-- postgres.go:530-536, 553-559. -/
def checkWhereItems (c : Checker) : List WItem → P (List Cond)
  | [] => .ok []
  | i :: is => (checkWhereItem c i).bind fun x => (checkWhereItems c is).map (x :: ·)
end

/-! ### Joins -/

/-- postgres.go:497-516. -/
def checkJoinItem (c : Checker) (rel : Relation) : JItem → P JoinCond
  | .bool b => .ok (.bool b)
  | .cond cc => (checkColCond c (some rel) cc false).map .column

/-- postgres.go:489-520. -/
def checkJoinDirs : Checker → List JoinDir → P (Checker × List (List JoinCond))
  | c, [] => .ok (c, [])
  | c, d :: ds =>
    (loadJoin c d.relIdent).bind fun cr =>
    (mapP (checkJoinItem cr.1 cr.2) d.items).bind fun items =>
    (checkJoinDirs cr.1 ds).map fun r => (r.1, items :: r.2)

/-- postgres.go:482-487: the relation of a Relation directive, if there is one. -/
def joinBase (c : Checker) : Option RelIdent → P Checker
  | none => .ok c
  | some rid => (loadJoin c rid).map fun cr => cr.1

/-- postgres.go:477-523. -/
def checkJoin (c : Checker) : Option JoinStruct → P (Checker × List (List JoinCond))
  | none => .ok (c, [])
  | some j => (joinBase c j.relation).bind fun c => checkJoinDirs c j.directives

/-! ### On conflict -/

/-- postgres.go:2071-2086. -/
def matchNumbers (a b : List Int) : Bool := a.length = b.length && a.all fun x => b.contains x

def Index.unique (i : Index) : Bool := i.isUnique || i.isPrimary
def Index.target (i : Index) : ConflictTarget := .index i.expression i.predicate

/-- postgres.go:1032-1070: a target given by columns. -/
def conflictColumns (rel : Relation) (cids : List ColIdent) : P ConflictTarget :=
  (mapP (fun cid => (relColumn rel cid).map fun col => col.num) cids).bind fun nums =>
    match rel.indexes.find? fun i => matchNumbers i.key nums && i.unique with
    | some i => .ok i.target
    | none =>
      if rel.indexes.any fun i => matchNumbers i.key nums then
        .err .onConflictIndexColumnsNotUnique
      else .err .onConflictIndexColumnsUnknown

/-- postgres.go:1073-1087. -/
def conflictIndex (rel : Relation) (name : Bytes) : P ConflictTarget :=
  match rel.indexes.find? fun i => i.name = name with
  | none => .err .onConflictIndexUnknown
  | some i => if i.unique then .ok i.target else .err .onConflictIndexNotUnique

/-- postgres.go:1090-1103. -/
def conflictConstraint (rel : Relation) (name : Bytes) : P ConflictTarget :=
  match rel.constraints.find? fun k => k.name = name with
  | none => .err .onConflictConstraintUnknown
  | some k =>
    if k.typ = 'p' ∨ k.typ = 'u' then .ok (.constraint k.name)
    else .err .onConflictConstraintNotUnique

/-- One of the three checks; a later one overwrites the target of an earlier one. -/
def targetStep {α : Type} (f : α → P ConflictTarget) (o : Option α) (t : Option ConflictTarget) :
    P (Option ConflictTarget) :=
  match o with
  | none => .ok t
  | some a => (f a).map some

/-- postgres.go:1106-1124. -/
def conflictUpdate (rel : Relation) (writes : List FieldWrite) : Option ColIdentList → P (List Column)
  | none => .ok []
  | some l =>
    if l.all then .ok (writes.map (·.column))
    else mapP (relColumn rel) l.items

/-- postgres.go:1024-1128. -/
def checkConflict (c : Checker) (writes : List FieldWrite) :
    Option OnConflict → P (Option ConflictInfo)
  | none => .ok none
  | some oc =>
    (targetStep (conflictColumns c.rel) oc.column none).bind fun t =>
    (targetStep (conflictIndex c.rel) oc.index t).bind fun t =>
    (targetStep (conflictConstraint c.rel) oc.constraint t).bind fun t =>
    (conflictUpdate c.rel writes oc.update).map fun u => some { target := t, update := u }

/-! ### Queries -/

/-- postgres.go:299-312, 343-354: every column is found. -/
def checkColumns (c : Checker) (cids : List ColIdent) : P Unit :=
  (mapP (findColumn c) cids).map fun _ => ()

/-- postgres.go:321-337. -/
def checkDefault (c : Checker) (cids : List ColIdent) : P Unit :=
  (mapP (fun cid => (relColumn c.rel cid).bind fun col =>
    refuseIf (!col.hasDefault) .columnDefaultUnset) cids).map fun _ => ()

/-- postgres.go:1585-1601 with strict = true. -/
def findQueryField (c : Checker) (fs : List FieldInfo) (cid : ColIdent) : P FieldInfo :=
  match fs.find? fun f => f.colIdent.name = cid.name with
  | none => .panic
  | some f => (findColumn c cid).map fun _ => f

/-- postgres.go:373-405. -/
def checkReturn (c : Checker) (fs : List FieldInfo) : Option ColIdentList → P (List FieldRead)
  | none => .ok []
  | some l =>
    if l.all then (mapP (fun f => checkRead c f false) fs).map List.flatten
    else
      (mapP (findQueryField c fs) l.items).bind fun sel =>
      (mapP (fun f => checkRead c f true) sel).map List.flatten

/-- postgres.go:411-423. -/
def checkResult (c : Checker) : Option (Bytes × RelType) → P (List FieldRead)
  | none => .ok []
  | some r => (mapP (fun f => checkRead c f true) r.2.fields).map List.flatten

/-- postgres.go:438-444. -/
def checkRelReads (c : Checker) (opt : Option ColIdentList) (fs : List FieldInfo) :
    P (List FieldRead) :=
  (mapP (fun (f : FieldInfo) =>
    checkRead c f (!opt.any fun l => l.contains f.colIdent)) fs).map List.flatten

/-- What one field adds to `PKeys` and to `Writes`. -/
structure WriteStep where
  pkeys : List FieldWrite := []
  writes : List FieldWrite := []
deriving Repr, DecidableEq

def skipWrite (c : Checker) (kind : QKind) (w : FieldWrite) : Bool :=
  if kind = .insert then skipInsert c w else skipUpdate c w

/-- postgres.go:447-470. -/
def checkRelWrite (c : Checker) (kind : QKind) (x : FieldInfo × Nat) : P WriteStep :=
  (checkWrite c x.2 x.1).bind fun w =>
    match w with
    | none => if x.1.isReadOnly then .ok {} else .err .columnUnknown
    | some w =>
      .ok { pkeys := if w.column.isPrimary then [w] else []
            writes := if skipWrite c kind w then [] else [w] }

/-- postgres.go:446-471. -/
def checkRelWrites (c : Checker) (kind : QKind) (fs : List FieldInfo) : P WriteStep :=
  (mapP (checkRelWrite c kind) fs.zipIdx).map fun l =>
    { pkeys := (l.map (·.pkeys)).flatten, writes := (l.map (·.writes)).flatten }

/-- postgres.go:433-473. -/
def checkRel (c : Checker) (q : Query) : P (List FieldRead × WriteStep) :=
  if q.rel.isDirective then .ok ([], {})
  else if q.kind = .select then
    (checkRelReads c q.optional q.rel.type.fields).map fun r => (r, {})
  else if q.kind = .insert ∨ q.kind = .update then
    (checkRelWrites c q.kind q.rel.type.fields).map fun w => ([], w)
  else .ok ([], {})

def itemsOf (l : Option ColIdentList) : List ColIdent := (l.map (·.items)).getD []

/-- postgres.go:251-270: the checks after the joins, in order. -/
def checkRest (c : Checker) (joins : List (List JoinCond)) (q : Query) : P TargetInfo :=
  (checkColumns c (itemsOf q.force)).bind fun _ =>
  (checkDefault c (itemsOf q.default)).bind fun _ =>
  (checkColumns c ((q.orderBy.getD []).map (·.colIdent))).bind fun _ =>
  (checkReturn c q.rel.type.fields q.ret).bind fun r1 =>
  (checkResult c q.result).bind fun r2 =>
  (checkRel c q).bind fun rw =>
  (checkWhereItems c ((q.wher.map (·.items)).getD [])).bind fun wh =>
  (checkConflict c rw.2.writes q.onConflict).map fun cf =>
    { reads := r1 ++ r2 ++ rw.1, writes := rw.2.writes, pkeys := rw.2.pkeys
      joins := joins, wher := wh, conflict := cf }

/-- postgres.go:194-202, 251-296: Check on a query struct. -/
def checkQuery (cat : Catalog) (q : Query) : P TargetInfo :=
  (loadTarget cat q.rel.id).bind fun c =>
  (checkJoin c q.join).bind fun cj =>
  checkRest { cj.1 with force := q.force } cj.2 q

/-- postgres.go:235-248. -/
def checkTextSearch (c : Checker) : Option ColIdent → P Unit
  | none => .ok ()
  | some cid =>
    (relColumn c.rel cid).bind fun col =>
      refuseIf (col.type.oid ≠ Oid.tsvector) .columnTextSearchType

/-- postgres.go:187-193, 210-248: Check on a filter struct. -/
def checkFilter (cat : Catalog) (f : FilterStruct) : P TargetInfo :=
  (loadTarget cat f.rel.id).bind fun c =>
  (mapP (checkFieldFilter c) f.rel.type.fields).bind fun fs =>
  (checkTextSearch c f.textSearch).map fun _ => { filters := fs.flatten }

end Verif.Postgres
