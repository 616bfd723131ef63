import Verif.Generator.Ast

/-
The code generator for queries: /repo/internal/generator/generator.go:180-714, 939-1429, 2046-2059,
2249-2290, 2302-2312.

The fields of `generator` that count parameters are the state `G`.  `paramSet` has as keys the pointers
of fields, here their positions; the pointers of conditionals, of the limit and of the offset are asked
for once, so they always get a new number.  Imports are modelled in Imports.lean.  `none` is a panic.
-/
namespace Verif.Generator
open Verif.Analysis Verif.Postgres

/-! ### Questions about a query: /repo/internal/analysis/types.go:720-804 -/

def isSelectCountOrExists (q : Query) : Bool := q.kind.isSelect && q.kind ≠ .select
def isUpdateWithPKeys (q : Query) : Bool := q.kind = .update && !q.hasWhere
def isInsertOrUpdate (q : Query) : Bool := q.kind = .insert || q.kind = .update
def isInsertOrUpdateSlice (q : Query) : Bool := isInsertOrUpdate q && q.rel.type.isSlice
def isSingle (t : RelType) : Bool := !t.isSlice && !t.isIter && !t.isArray
def isWithoutOutput (q : Query) : Bool := q.result.isNone && q.ret.isNone && !q.kind.isSelect
def isSingleOutput (q : Query) : Bool :=
  (q.kind.isSelect && isSingle q.rel.type) || (q.result.any fun r => isSingle r.2) ||
    (q.ret.isSome && isSingle q.rel.type)

/-- generator.go:2304-2306. -/
def canUseDefault (q : Query) (f : FieldInfo) : Bool :=
  f.useDefault || q.default.any fun l => l.contains f.colIdent

/-- generator.go:2310-2312. -/
def canSkipRelInit (q : Query) : Bool := isInsertOrUpdate q && q.result.isNone

/-! ### Parameters -/

/-- `paramNum`, `paramSet` and `inputSliceArgs`. -/
structure G where
  num : Int := 0
  set : List (Nat × Int) := []
  slices : List GoExpr := []
deriving Repr, DecidableEq

/-- generator.go:2249-2265 for a pointer that is asked for once. -/
def freshParam (g : G) : Slot × G := (.num (g.num + 1), { g with num := g.num + 1 })

/-- generator.go:2249-2265 for the pointer of a field. -/
def fieldParam (g : G) (idx : Nat) : Slot × G :=
  match List.lookup idx g.set with
  | some n => (.num n, g)
  | none => (.num (g.num + 1), { g with num := g.num + 1, set := (idx, g.num + 1) :: g.set })

/-- A loop that appends one item each time. -/
def mapSt {β γ : Type} (f : G → β → γ × G) : G → List β → List γ × G
  | g, [] => ([], g)
  | g, x :: xs =>
    let r := f g x
    let rs := mapSt f r.2 xs
    (r.1 :: rs.1, rs.2)

/-- generator.go:2046-2059. -/
def inputPKeys (t : TargetInfo) : List FieldWrite :=
  t.pkeys.filter fun p => !t.writes.any fun w => w.idx = p.idx

/-! ### Expressions -/

section
variable {α : Type}

def emptyLit : VExpr α := .lit b!"''"

/-- generator.go:637-680. -/
def addCoalesce (x : VExpr α) (val : Bytes) (c : Column) : VExpr α :=
  if val.length > 0 then .coalesce x (.cast (.lit val) c.type.nameFmt)
  else if c.type.oid = Oid.uuid then .coalesce (.cast x b!"text") emptyLit
  else
    match c.type.zeroValue with
    | some l => .coalesce x (.cast (.lit l) c.type.nameFmt)
    | none => x

/-- generator.go:693-695. -/
def textUnlessParam : VExpr α → VExpr α
  | .param a => .param a
  | x => .cast x b!"text"

/-- generator.go:683-714. -/
def addNullif (x : VExpr α) (c : Column) : VExpr α :=
  if c.type.oid = Oid.uuid then .cast (.nullif (textUnlessParam x) emptyLit) c.type.nameFmt
  else
    match c.type.zeroValue with
    | some l => .cast (.nullif x (.lit l)) c.type.nameFmt
    | none => x

/-- generator.go:1276-1286: a function is applied to both sides. -/
def addCall (fn : Bytes) (x : VExpr α) : VExpr α := if fn.length > 0 then .call fn x else x

/-- generator.go:1302-1314. -/
def addQuant (q : Option Quant) (columnType : Bytes) (x : VExpr α) : VExpr α :=
  match q with
  | none => x
  | some q => .quantified q (if columnType.length > 0 then .cast x (columnType ++ b!"[]") else x)

/-- generator.go:1295-1299. -/
def rhsExpr : Rhs → VExpr α
  | .none => .absent
  | .column c => if c = {} then .absent else .col c
  | .literal s => if s.length > 0 then .lit s else .absent

/-- generator.go:581-588. -/
def readVal (r : FieldRead) : VExpr α :=
  if r.needsCoalesce then addCoalesce (.col r.colIdent) r.field.coalesceValue r.column
  else .col r.colIdent

end

/-- generator.go:627-634. -/
def addConv (fn : Bytes) (x : GoExpr) : GoExpr := if fn.length > 0 then .conv fn x else x

/-- generator.go:351-355, 412-416, 563-568. -/
def fieldSel (root : GoExpr) (f : FieldInfo) : GoExpr :=
  .sel (f.selector.foldl (fun x n => .sel x n.name) root) f.name

def recv : GoExpr := .ident b!"q"

/-- generator.go:270-275. -/
def inputRoot (q : Query) : GoExpr :=
  if q.rel.type.isSlice then .ident b!"v" else .sel recv q.rel.fieldName

/-! ### Arguments -/

/-- generator.go:351-357. -/
def writeArg (q : Query) (w : FieldWrite) : GoExpr := addConv w.valuer (fieldSel (inputRoot q) w.field)

/-- generator.go:341-359. -/
def writeArgs (q : Query) (t : TargetInfo) : List GoExpr :=
  (t.writes.filter fun w => !canUseDefault q w.field).map (writeArg q)

/-- generator.go:387-395. -/
def fieldCondArgs (sx : GoExpr) (f : FieldConditional) : List GoExpr :=
  if predIs Pred.isArray f.pred then [] else [addConv f.valuer (.sel sx f.fieldName)]

/-- generator.go:400-405. -/
def boundArgs (sx : GoExpr) : RangeBound → List GoExpr
  | .field f => fieldCondArgs sx f
  | .column _ => []

mutual
/-- generator.go:374-382. -/
def condArgs (sx : GoExpr) : Cond → List GoExpr
  | .bool _ => []
  | .nested n items => condsArgs (.sel sx n) items
  | .field f => fieldCondArgs sx f
  | .column _ => []
  | .between b => boundArgs (.sel sx b.fieldName) b.lower ++ boundArgs (.sel sx b.fieldName) b.upper
/-- generator.go:372-384. -/
def condsArgs (sx : GoExpr) : List Cond → List GoExpr
  | [] => []
  | c :: cs => condArgs sx c ++ condsArgs sx cs
end

/-- generator.go:362-369. -/
def whereArgs (q : Query) (t : TargetInfo) : List GoExpr :=
  match q.wher with
  | none => []
  | some w => condsArgs (.sel recv w.fieldName) t.wher

/-- generator.go:409-420. -/
def pkeyArgs (q : Query) (t : TargetInfo) : List GoExpr :=
  if isUpdateWithPKeys q then (inputPKeys t).map fun w => fieldSel (inputRoot q) w.field else []

/-- generator.go:423-440. -/
def limitArgs : Option LimitField → List GoExpr
  | none => []
  | some l => if l.name.length = 0 then [] else [.sel recv l.name]

/-- generator.go:254-267: `inputArgs`. -/
def inputArgs (q : Query) (t : TargetInfo) : List GoExpr :=
  writeArgs q t ++ whereArgs q t ++ pkeyArgs q t ++ limitArgs q.limit ++ limitArgs q.offset

/-! ### Values to be written -/

/-- generator.go:299-329. -/
def writeVal (q : Query) (g : G) (w : FieldWrite) : VExpr Slot × G :=
  if canUseDefault q w.field then (.default, g)
  else
    let p := fieldParam g w.idx
    (if w.needsNullif then addNullif (.param p.1) w.column
     else if q.isSliceUpdate then .cast (.param p.1) w.column.type.nameFmt
     else .param p.1, p.2)

/-- generator.go:334. -/
def pkeyVal (g : G) (w : FieldWrite) : VExpr Slot × G :=
  let p := fieldParam g w.idx
  (.param p.1, p.2)

/-- generator.go:293-337: `inputVals` and `inputValsPKeys`. -/
structure Values where
  vals : List (VExpr Slot)
  pkeys : List (VExpr Slot)
  g : G

def targetValues (q : Query) (t : TargetInfo) : Values :=
  let r := mapSt (writeVal q) {} t.writes
  if q.isSliceUpdate && t.writes.length > 0 then
    let p := mapSt pkeyVal r.2 (inputPKeys t)
    { vals := r.1, pkeys := p.1, g := p.2 }
  else { vals := r.1, pkeys := [], g := r.2 }

/-- generator.go:304-308. -/
def updateCols {α : Type} (q : Query) (t : TargetInfo) : List (VExpr α) :=
  (t.writes.filter fun w => !canUseDefault q w.field).map fun w => .xcol w.column.name

/-! ### Conditions -/

/-- What a predicate becomes: generator.go:1317-1387 and the tables at :2366-2390. -/
inductive PForm where
  | binary (op : BinOp)
  | inList (not : Bool)
  | truth (not : Bool) (t : Truth)
  | null (not : Bool)
  | bare
deriving Repr, DecidableEq

def predForm : Option Pred → PForm
  | some .isEQ => .binary .eq
  | some .notEQ => .binary .ne
  | some .notEQ2 => .binary .ne2
  | some .isLT => .binary .lt
  | some .isGT => .binary .gt
  | some .isLTE => .binary .le
  | some .isGTE => .binary .ge
  | some .isLike => .binary (.like false)
  | some .notLike => .binary (.like true)
  | some .isILike => .binary (.ilike false)
  | some .notILike => .binary (.ilike true)
  | some .isSimilar => .binary (.similar false)
  | some .notSimilar => .binary (.similar true)
  | some .isDistinct => .binary (.distinct false)
  | some .notDistinct => .binary (.distinct true)
  | some .isMatch => .binary .matches
  | some .isMatchi => .binary .matchesCI
  | some .notMatch => .binary .notMatches
  | some .notMatchi => .binary .notMatchesCI
  | some .isIn => .inList false
  | some .notIn => .inList true
  | some .isTrue => .truth false .true
  | some .notTrue => .truth true .true
  | some .isFalse => .truth false .false
  | some .notFalse => .truth true .false
  | some .isUnknown => .truth false .unknown
  | some .notUnknown => .truth true .unknown
  | some .isNull => .null false
  | some .notNull => .null true
  | _ => .bare

/-- generator.go:1317-1387: the tree. -/
def formExpr {α : Type} (l r : VExpr α) (list : α) : PForm → BExpr α
  | .binary op => .binary op l r
  | .inList n => .inList n l list
  | .truth n t => .truth n t l
  | .null n => .null n l
  | .bare => .bare l

/-- generator.go:1355-1357. -/
def formState (slice : GoExpr) (g : G) : PForm → G
  | .inList _ => { g with slices := g.slices ++ [slice], num := g.num - 1 }
  | _ => g

/-- generator.go:1317-1387; `name` is the field of a field conditional. -/
def predExpr (sx : GoExpr) (name : Bytes) (g : G) (p : Option Pred) (l r : VExpr Slot) :
    BExpr Slot × G :=
  (formExpr l r (.slice (g.slices.length + 1)) (predForm p),
    formState (.sel sx name) g (predForm p))

/-- The type of generator.go:1287-1289. -/
def quantType (f : FieldConditional) : Bytes :=
  if f.quant.isSome then f.column.type.nameFmt else []

/-- generator.go:1269-1289. -/
def fieldExpr (sx : GoExpr) (g : G) (f : FieldConditional) : BExpr Slot × G :=
  let p := freshParam g
  predExpr sx f.fieldName p.2 f.pred (addCall f.func (.col f.colIdent))
    (addQuant f.quant (quantType f) (addCall f.func (.param p.1)))

/-- generator.go:1291-1300. -/
def columnExpr (sx : GoExpr) (g : G) (c : ColumnConditional) : BExpr Slot × G :=
  predExpr sx [] g c.pred (.col c.lhs) (addQuant c.quant [] (rhsExpr c.rhs))

/-- `RHSColIdent`. -/
def rhsCol : Rhs → ColIdent
  | .column c => c
  | _ => {}

/-- generator.go:1414-1426: one end of a range. -/
def boundExpr (g : G) : RangeBound → VExpr Slot × G
  | .column c => (.col (rhsCol c.rhs), g)
  | .field _ =>
    let p := freshParam g
    (.param p.1, p.2)

/-- generator.go:1410-1429. -/
def betweenExpr (g : G) (b : BetweenConditional) : BExpr Slot × G :=
  let l := boundExpr g b.lower
  let u := boundExpr l.2 b.upper
  (.between (.col b.colIdent) l.1 u.1, u.2)

/-- generator.go:1390-1398: `first` is `i == 0`. -/
def addItem {α : Type} (first : Bool) (boolean : Option Bool) (x : BExpr α) (rest : BList α) :
    BList α :=
  if first then .cons .initial x rest
  else
    match boolean with
    | some true => .cons .or x rest
    | some false => .cons .and x rest
    | none => rest

def isBool : Cond → Option Bool
  | .bool b => some b
  | _ => none

mutual
/-- generator.go:1250-1388. -/
def condExpr (sx : GoExpr) (g : G) : Cond → BExpr Slot × G
  | .bool _ => (.bare .absent, g)
  | .nested n items =>
    let r := condList (.sel sx n) g true none items
    (.group r.1, r.2)
  | .field f => fieldExpr sx g f
  | .column c => columnExpr sx g c
  | .between b => betweenExpr g b
/-- generator.go:1239-1407. -/
def condList (sx : GoExpr) (g : G) (first : Bool) (boolean : Option Bool) :
    List Cond → BList Slot × G
  | [] => (.nil, g)
  | c :: cs =>
    match isBool c with
    | some b => condList sx g false (some b) cs
    | none =>
      let e := condExpr sx g c
      let r := condList sx e.2 false boolean cs
      (addItem first boolean e.1 r.1, r.2)
end

/-- generator.go:1222-1225. -/
def joinCond : JoinCond → Cond
  | .bool b => .bool b
  | .column c => .column c

/-- GO.SelectorExpr{}. -/
def noSel : GoExpr := .sel (.ident []) []

/-- The loop of generator.go:1221-1235. -/
def tableJoins : G → List JoinDir → List (List JoinCond) → Option (List (TableJoin Slot) × G)
  | g, [], _ => some ([], g)
  | _, _ :: _, [] => none
  | g, d :: ds, c :: cs =>
    let e := condList noSel g true none (c.map joinCond)
    (tableJoins e.2 ds cs).map fun r =>
      ({ type := d.joinType, rel := d.relIdent, cond := e.1 } :: r.1, r.2)

/-- generator.go:1216-1236. -/
def buildJoins (q : Query) (t : TargetInfo) (g : G) : Option (List (TableJoin Slot) × G) :=
  match q.join with
  | none => some ([], g)
  | some j => tableJoins g j.directives t.joins

/-- generator.go:1188-1204. -/
def pkeyConds (slice : Bool) (g : G) (first : Bool) : List FieldWrite → BList Slot × G
  | [] => (.nil, g)
  | w :: ws =>
    let p := fieldParam g w.idx
    let r := pkeyConds slice p.2 false ws
    (.cons (if first then .initial else .and)
      (.binary .eq (.col w.colIdent)
        (if slice then .cast (.xcol w.colIdent.name) w.column.type.nameFmt else .param p.1)) r.1, r.2)

/-- generator.go:1185-1213. -/
def buildWhere (q : Query) (t : TargetInfo) (g : G) : Option (Option (BList Slot) × G) :=
  if isUpdateWithPKeys q then
    let r := pkeyConds q.rel.type.isSlice g true t.pkeys
    some (some r.1, r.2)
  else if t.wher.length > 0 then
    match q.wher with
    | none => none
    | some w =>
      let r := condList (.sel recv w.fieldName) g true none t.wher
      some (some r.1, r.2)
  else some (none, g)

/-! ### The other clauses -/

/-- generator.go:1119-1123, 1132-1136. -/
def limitValue (g : G) (l : LimitField) : LimitVal Slot × G :=
  if l.name.length > 0 then
    let p := freshParam g
    (.param p.1, p.2)
  else (if l.value > 0 then .int l.value else .none, g)

/-- generator.go:1108-1124. -/
def buildLimit (q : Query) (g : G) : LimitVal Slot × G :=
  match q.limit with
  | none => (if isSingle q.rel.type then .int 1 else .none, g)
  | some l => limitValue g l

/-- generator.go:1127-1137. -/
def buildOffset (q : Query) (g : G) : LimitVal Slot × G :=
  match q.offset with
  | none => (.none, g)
  | some l => limitValue g l

/-- generator.go:1140-1152. -/
def buildOrder (q : Query) : List OrderBy :=
  (q.orderBy.getD []).map fun i =>
    { column := i.colIdent, desc := i.desc, nullsFirst := i.nulls = some .first }

/-- generator.go:1155-1182. -/
def buildConflict (q : Query) (t : TargetInfo) : Option ConflictClause :=
  if q.kind ≠ .insert then none
  else t.conflict.map fun c => { target := c.target, update := c.update.map (·.name) }

/-- generator.go:443-446, 576-588: `outputVals`. -/
def outputVals {α : Type} (t : TargetInfo) : List (VExpr α) := t.reads.map readVal

section
variable {α : Type}

/-- generator.go:1003-1006, 1052-1055: the tables of FROM or USING. -/
def tableExprs (q : Query) (js : List (TableJoin α)) : Option (List (TableExpr α)) :=
  match q.join with
  | none => some []
  | some j => j.relation.map fun r => .rel r :: js.map .join

/-- The clauses of generator.go:939-945. -/
structure Clauses (α : Type) where
  joins : List (TableJoin α)
  wher : Option (BList α)
  limit : LimitVal α
  offset : LimitVal α

/-- What generator.go:939-961 leaves behind. -/
structure SQL (α : Type) where
  stmt : Stmt α
  tail : Tail α := .none
  closeFilter : Bool := false

/-- generator.go:968-991. -/
def buildInsert (q : Query) (t : TargetInfo) (vals : List (VExpr α)) : SQL α :=
  let c := buildConflict q t
  let cols := t.writes.map fun w => w.column.name
  if q.rel.type.isSlice then
    if (outputVals (α := α) t).length > 0 ∨ c.isSome then
      { stmt := .insert q.rel.id cols q.override none none [], tail := .insert c (outputVals t) }
    else { stmt := .insert q.rel.id cols q.override none c (outputVals t) }
  else { stmt := .insert q.rel.id cols q.override (some vals) c (outputVals t) }

/-- generator.go:994-1030. -/
def buildUpdate (q : Query) (t : TargetInfo) (vals : List (VExpr α)) (c : Clauses α) : Option (SQL α) :=
  let cols := t.writes.map fun w => w.column.name
  let vals := if q.isSliceUpdate then updateCols q t else vals
  (tableExprs q c.joins).map fun from_ =>
    if q.rel.type.isSlice then
      { stmt := .update q.rel.id cols vals (from_ ++ [.values]) none []
        tail := .update (some (cols ++ (inputPKeys t).map fun w => w.column.name)) c.wher [] }
    else if q.filter.isSome ∧ (outputVals (α := α) t).length > 0 then
      { stmt := .update q.rel.id cols vals from_ none []
        tail := .update none none (outputVals t) }
    else { stmt := .update q.rel.id cols vals from_ c.wher (outputVals t) }

/-- generator.go:1048-1060. -/
def buildDelete (q : Query) (t : TargetInfo) (c : Clauses α) : Option (SQL α) :=
  (tableExprs q c.joins).map fun us => { stmt := .delete q.rel.id us c.wher (outputVals t) }

/-- generator.go:1063-1078. -/
def buildCount (q : Query) (c : Clauses α) : SQL α :=
  if q.filter.isNone then { stmt := .count q.rel.id c.joins c.wher (buildOrder q) c.offset }
  else { stmt := .count q.rel.id c.joins none [] .none }

/-- generator.go:1081-1101. -/
def buildExists (q : Query) (c : Clauses α) : SQL α :=
  let not := q.kind = .selectNotExists
  if q.filter.isNone then
    { stmt := .exists_ not false q.rel.id c.joins c.wher (buildOrder q) c.limit c.offset }
  else
    { stmt := .exists_ not true q.rel.id c.joins none [] .none .none, closeFilter := true }

/-- generator.go:947-960. -/
def buildStmt (q : Query) (t : TargetInfo) (vals : List (VExpr α)) (c : Clauses α) : Option (SQL α) :=
  match q.kind with
  | .insert => some (buildInsert q t vals)
  | .update => buildUpdate q t vals c
  | .select =>
    some { stmt := .select (outputVals t) q.rel.id c.joins c.wher (buildOrder q) c.limit c.offset }
  | .selectCount => some (buildCount q c)
  | .selectExists => some (buildExists q c)
  | .selectNotExists => some (buildExists q c)
  | .delete => buildDelete q t c

end

/-- What is known after generator.go:188-192. -/
structure Code where
  sql : SQL Slot
  /-- `inputVals ++ inputValsPKeys` -/
  rowVals : List (VExpr Slot)
  args : List GoExpr
  g : G

/-- generator.go:188-192, 939-961. -/
def generate (q : Query) (t : TargetInfo) : Option Code :=
  let v := targetValues q t
  (buildJoins q t v.g).bind fun js =>
  (buildWhere q t js.2).bind fun w =>
    let l := buildLimit q w.2
    let o := buildOffset q l.2
    (buildStmt q t v.vals { joins := js.1, wher := w.1, limit := l.1, offset := o.1 }).map fun s =>
      { sql := s, rowVals := v.vals ++ v.pkeys, args := inputArgs q t, g := o.2 }

end Verif.Generator
