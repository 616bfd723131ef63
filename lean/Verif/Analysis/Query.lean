import Verif.Analysis.Where
import Verif.Pgsql.Codecs

/-
Query and filter structs: /repo/internal/analysis/analysis.go:155-420 (analyzeFilterStruct,
analyzeQueryStruct and their dispatch), :751-766 (the checks of analyzeWhereStruct), :1041-1214
(joins), :1233-1385 (on conflict), :1394-1549 (plain fields), :1556-1755 (directives),
types.go:17-112, 345-560.

Simplifications: positions and `FieldMap` are left out; field names are lower-cased on ASCII letters
only.
-/
namespace Verif.Analysis

/-- enums.go:122-137 QueryKind. -/
inductive QKind where
  | insert | update | delete | select | selectCount | selectExists | selectNotExists
deriving Repr, DecidableEq

/-- enums.go:139-142. -/
def QKind.isSelect : QKind → Bool
  | .insert | .update | .delete => false
  | _ => true

/-- Insert, Update or Delete: analysis.go:1514, 1532, 1630. -/
def QKind.isWrite : QKind → Bool
  | .insert | .update | .delete => true
  | _ => false

/-- types.go RelField. -/
structure RelField where
  fieldName : Bytes
  id : RelIdent
  type : RelType := {}
  isDirective : Bool := false
deriving Repr, DecidableEq

/-- enums.go:160-169; the zero value is `none`. -/
inductive JoinType where
  | cross | inner | left | right | full
deriving Repr, DecidableEq

/-- enums.go:172-190. -/
def stringToJoinType (s : Bytes) : Option JoinType :=
  List.lookup s [(b!"CrossJoin", JoinType.cross), (b!"InnerJoin", .inner), (b!"LeftJoin", .left),
    (b!"RightJoin", .right), (b!"FullJoin", .full)]

/-- types.go JoinTagItem. -/
inductive JItem where
  | bool (isOr : Bool)
  | cond (c : ColCond)
deriving Repr, DecidableEq

structure JoinDir where
  joinType : Option JoinType
  relIdent : RelIdent
  items : List JItem := []
deriving Repr, DecidableEq

structure JoinStruct where
  fieldName : Bytes
  relation : Option RelIdent := none
  directives : List JoinDir := []
deriving Repr, DecidableEq

/-- types.go:390-404. -/
structure OnConflict where
  fieldName : Bytes
  column : Option (List ColIdent) := none
  index : Option Bytes := none
  constraint : Option Bytes := none
  ignore : Bool := false
  update : Option ColIdentList := none
deriving Repr, DecidableEq

/-- types.go LimitField and OffsetField; the name is empty for a directive. -/
structure LimitField where
  name : Bytes := []
  value : Nat := 0
deriving Repr, DecidableEq

inductive Nulls where
  | first | last
deriving Repr, DecidableEq

structure OrderItem where
  colIdent : ColIdent
  desc : Bool := false
  nulls : Option Nulls := none
deriving Repr, DecidableEq

inductive Overriding where
  | system | user
deriving Repr, DecidableEq

structure WhereStruct where
  fieldName : Bytes
  items : List WItem
deriving Repr

/-- types.go:40-112 QueryStruct. -/
structure Query where
  typeName : Bytes
  kind : QKind
  rel : RelField
  join : Option JoinStruct := none
  wher : Option WhereStruct := none
  onConflict : Option OnConflict := none
  all : Bool := false
  default : Option ColIdentList := none
  force : Option ColIdentList := none
  optional : Option ColIdentList := none
  ret : Option ColIdentList := none
  result : Option (Bytes × RelType) := none
  rowsAffected : Option (Bytes × Kind) := none
  limit : Option LimitField := none
  offset : Option LimitField := none
  orderBy : Option (List OrderItem) := none
  override : Option Overriding := none
  errorHandler : Option (Bytes × Bool) := none
  context : Option Bytes := none
  filter : Option Bytes := none
deriving Repr

/-- The state of the second pass: the query so far, `a.info.RelSpace` and the cache. -/
structure St where
  q : Query
  rs : RelSpace
  cache : Cache
deriving Repr

/-- A row selecting clause is already there: analysis.go:758, 1491, 1663. -/
def Query.hasWhere (q : Query) : Bool := q.all || q.wher.isSome || q.filter.isSome

/-- A result target is already there: analysis.go:1517, 1535, 1633. -/
def Query.hasResult (q : Query) : Bool := q.ret.isSome || q.result.isSome || q.rowsAffected.isSome

/-- analysis.go:755, 1488, 1660. -/
def Query.isSliceUpdate (q : Query) : Bool := q.kind = .update && q.rel.type.isSlice

/-! ### Row selection -/

/-- analysis.go:752-760, 1485-1493. -/
def rowChecks (q : Query) : R Unit :=
  (failIf (!(q.kind.isSelect || q.kind = .update || q.kind = .delete)) .illegalQueryField).bind fun _ =>
  (failIf q.isSliceUpdate .illegalSliceUpdateModifier).bind fun _ =>
  failIf q.hasWhere .conflictingWhere

/-- analysis.go:751-1034. -/
def analyzeWhere (env : Env) (s : St) (h : FieldHdr) (t : Ty) : R St :=
  (rowChecks s.q).bind fun _ =>
    match getStruct t with
    | none => .err .badFieldTypeStruct
    | some (n, fs) =>
      (whereItems env s.rs n [] fs).map fun items =>
        { s with q := { s.q with wher := some { fieldName := h.name, items := items } } }

/-- analysis.go:1484-1499. -/
def analyzeFilterField (s : St) (h : FieldHdr) : R St :=
  (rowChecks s.q).map fun _ => { s with q := { s.q with filter := some h.name } }

/-- analysis.go:1656-1670. -/
def analyzeAll (s : St) : R St :=
  (failIf (!(s.q.kind = .update || s.q.kind = .delete)) .illegalQueryField).bind fun _ =>
  (failIf s.q.isSliceUpdate .illegalSliceUpdateModifier).bind fun _ =>
  (failIf s.q.hasWhere .conflictingWhere).map fun _ => { s with q := { s.q with all := true } }

/-! ### Joins -/

/-- `strings.Split(s, ";")`. -/
def splitSemi : Bytes → List Bytes
  | [] => [[]]
  | c :: cs =>
    match splitSemi cs with
    | [] => [[]]
    | p :: ps => if c = ';' then [] :: p :: ps else (c :: p) :: ps

/-- analysis.go:1160-1163: is the left-hand side rejected? -/
def badLhs (rid : RelIdent) (cid : ColIdent) : Bool :=
  (cid.qualifier.length > 0 && (rid.alias.length > 0 && rid.alias ≠ cid.qualifier)) ||
    (rid.alias.length = 0 && rid.name ≠ cid.qualifier)

/-- analysis.go:1146-1200: one condition. -/
def joinCond (rs : RelSpace) (rid : RelIdent) (val : Bytes) : R ColCond :=
  (parseColIdent rs (parsePredicateExpr val).lhs).bind fun cid =>
  (failIf (badLhs rid cid) .badJoinConditionLHS).bind fun _ =>
  colCond rs cid (parsePredicateExpr val)

/-- The inner loop of analysis.go:1133-1208; `isOr` is `i > 0`. -/
def joinAlts (rs : RelSpace) (rid : RelIdent) :
    List JItem → Bool → List Bytes → R (List JItem)
  | items, _, [] => .ok items
  | items, isOr, v :: vs =>
    (joinCond rs rid v).bind fun c =>
      joinAlts rs rid ((if items.length > 0 then items ++ [.bool isOr] else items) ++ [.cond c]) true vs

/-- The outer loop of analysis.go:1131-1209. -/
def joinConds (rs : RelSpace) (rid : RelIdent) : List JItem → List Bytes → R (List JItem)
  | items, [] => .ok items
  | items, v :: vs =>
    (joinAlts rs rid items false (splitSemi v)).bind fun items => joinConds rs rid items vs

/-- analysis.go:1096-1115. -/
def joinRelation (rs : RelSpace) (j : JoinStruct) (h : FieldHdr) : R (RelSpace × JoinStruct) :=
  if tolower j.fieldName ≠ b!"from" ∧ tolower j.fieldName ≠ b!"using" then
    .err .illegalStructDirective
  else if j.relation.isSome then .err .conflictingRelationDirective
  else
    (parseRelIdent (h.tag.first b!"sql")).bind fun rid =>
    (addToRelSpace rs rid).map fun rs => (rs, { j with relation := some rid })

/-- analysis.go:1118-1214. -/
def joinDirective (rs : RelSpace) (j : JoinStruct) (dirName : Bytes) (h : FieldHdr) :
    R (RelSpace × JoinStruct) :=
  (parseRelIdent (h.tag.first b!"sql")).bind fun rid =>
  (addToRelSpace rs rid).bind fun rs =>
  (joinConds rs rid [] ((h.tag.get b!"sql").drop 1)).map fun items =>
    (rs, { j with directives := j.directives ++
      [{ joinType := stringToJoinType dirName, relIdent := rid, items := items }] })

/-- The loop of analysis.go:1059-1088. -/
def joinFields (rs : RelSpace) (j : JoinStruct) : List (FieldHdr × Ty) → R (RelSpace × JoinStruct)
  | [] => .ok (rs, j)
  | (h, t) :: rest =>
    if h.tag.first b!"sql" = b!"-" ∨ (h.tag.first b!"sql").length = 0 ∨ h.name ≠ b!"_" then
      joinFields rs j rest
    else
      (getDirectiveName t).bind fun d =>
        (if tolower d = b!"relation" then joinRelation rs j h
         else if tolower d ∈ [b!"leftjoin", b!"rightjoin", b!"fulljoin", b!"crossjoin", b!"innerjoin"]
         then joinDirective rs j d h
         else .err .illegalStructDirective).bind fun p =>
        joinFields p.1 p.2 rest

/-- analysis.go:1041-1093. -/
def analyzeJoin (s : St) (h : FieldHdr) (t : Ty) : R St :=
  (failIf ((tolower h.name = b!"join" && !s.q.kind.isSelect) ||
      (tolower h.name = b!"from" && s.q.kind ≠ .update) ||
      (tolower h.name = b!"using" && s.q.kind ≠ .delete)) .illegalQueryField).bind fun _ =>
    match getStruct t with
    | none => .err .badFieldTypeStruct
    | some (_, fs) =>
      (joinFields s.rs { fieldName := h.name } fs.toList).map fun p =>
        { s with rs := p.1, q := { s.q with join := some p.2 } }

/-! ### On conflict -/

def OnConflict.hasTarget (oc : OnConflict) : Bool :=
  oc.column.isSome || oc.index.isSome || oc.constraint.isSome
def OnConflict.hasAction (oc : OnConflict) : Bool := oc.ignore || oc.update.isSome

/-- analysis.go:1294-1385: the directives of an on-conflict struct. -/
def conflictDirective (rs : RelSpace) (oc : OnConflict) (d : Bytes) (h : FieldHdr) : R OnConflict :=
  if tolower d = b!"column" then
    (failIf oc.hasTarget .conflictingOnConflictTarget).bind fun _ =>
    (parseColIdents rs (h.tag.get b!"sql")).map fun ids => { oc with column := some ids }
  else if tolower d = b!"index" then
    (failIf oc.hasTarget .conflictingOnConflictTarget).bind fun _ =>
    (failIf (!rxIdent.matches (h.tag.first b!"sql")) .badIdentTagValue).map fun _ =>
      { oc with index := some (h.tag.first b!"sql") }
  else if tolower d = b!"constraint" then
    (failIf oc.hasTarget .conflictingOnConflictTarget).bind fun _ =>
    (failIf (!rxIdent.matches (h.tag.first b!"sql")) .badIdentTagValue).map fun _ =>
      { oc with constraint := some (h.tag.first b!"sql") }
  else if tolower d = b!"ignore" then
    (failIf oc.hasAction .conflictingOnConflictAction).map fun _ => { oc with ignore := true }
  else if tolower d = b!"update" then
    (failIf oc.hasAction .conflictingOnConflictAction).bind fun _ =>
    (parseColIdentList rs (h.tag.get b!"sql")).map fun l => { oc with update := some l }
  else .err .illegalStructDirective

/-- The loop of analysis.go:1244-1279. -/
def conflictFields (rs : RelSpace) (oc : OnConflict) : List (FieldHdr × Ty) → R OnConflict
  | [] => .ok oc
  | (h, t) :: rest =>
    if h.name ≠ b!"_" then conflictFields rs oc rest
    else
      (getDirectiveName t).bind fun d =>
      (conflictDirective rs oc d h).bind fun oc => conflictFields rs oc rest

/-- analysis.go:1233-1287. -/
def analyzeOnConflict (s : St) (h : FieldHdr) (t : Ty) : R St :=
  (failIf (s.q.kind ≠ .insert) .illegalQueryField).bind fun _ =>
    match getStruct t with
    | none => .err .badFieldTypeStruct
    | some (_, fs) =>
      (conflictFields s.rs { fieldName := h.name } fs.toList).bind fun oc =>
      (failIf (oc.update.isSome && !oc.hasTarget) .missingOnConflictTarget).map fun _ =>
        { s with q := { s.q with onConflict := some oc } }

/-! ### Plain fields -/

/-- `strconv.ParseUint(val, 10, 64)` of a tag value. -/
def parseTagUint (val : Bytes) : R Nat :=
  match Verif.Pgsql.parseUint 10 64 val with
  | .ok n => .ok n
  | _ => .err .badUIntegerTagValue

/-- analysis.go:1402-1419, 1437-1454. -/
def limitField (h : FieldHdr) (t : Ty) : R LimitField :=
  let val := h.tag.first b!"sql"
  (if h.name ≠ b!"_" then failIf (!isIntegerType t) .badFieldTypeInt
   else failIf (val.length = 0) .missingTagValue).bind fun _ =>
  (if val.length > 0 then parseTagUint val else .ok 0).map fun n =>
    { name := if h.name ≠ b!"_" then h.name else [], value := n }

/-- analysis.go:1394-1424. -/
def analyzeLimit (s : St) (h : FieldHdr) (t : Ty) : R St :=
  (failIf (!s.q.kind.isSelect) .illegalQueryField).bind fun _ =>
  (failIf s.q.limit.isSome .conflictingFieldOrDirective).bind fun _ =>
  (limitField h t).map fun l => { s with q := { s.q with limit := some l } }

/-- analysis.go:1429-1459. -/
def analyzeOffset (s : St) (h : FieldHdr) (t : Ty) : R St :=
  (failIf (!s.q.kind.isSelect) .illegalQueryField).bind fun _ =>
  (failIf s.q.offset.isSome .conflictingFieldOrDirective).bind fun _ =>
  (limitField h t).map fun l => { s with q := { s.q with offset := some l } }

/-- analysis.go:1461-1471. -/
def analyzeErrorHandler (s : St) (h : FieldHdr) (isInfo : Bool) : R St :=
  (failIf s.q.errorHandler.isSome .conflictingFieldOrDirective).map fun _ =>
    { s with q := { s.q with errorHandler := some (h.name, isInfo) } }

/-- analysis.go:1473-1482. -/
def analyzeContext (s : St) (h : FieldHdr) : R St :=
  (failIf s.q.context.isSome .conflictingFieldOrDirective).map fun _ =>
    { s with q := { s.q with context := some h.name } }

/-- analysis.go:1514-1519, 1532-1537. -/
def resultChecks (q : Query) : R Unit :=
  (failIf (!q.kind.isWrite) .illegalQueryField).bind fun _ =>
  failIf q.hasResult .conflictingResultTarget

/-- analysis.go:1513-1529. -/
def analyzeResult (env : Env) (s : St) (h : FieldHdr) (t : Ty) : R St :=
  (resultChecks s.q).bind fun _ =>
  (analyzeRelType env s.rs s.cache t).map fun p =>
    { s with cache := p.2, q := { s.q with result := some (h.name, p.1) } }

/-- analysis.go:1531-1549. -/
def analyzeRowsAffected (s : St) (h : FieldHdr) (t : Ty) : R St :=
  (resultChecks s.q).bind fun _ =>
  (failIf (!isIntegerType t) .badFieldTypeInt).map fun _ =>
    { s with q := { s.q with rowsAffected := some (h.name, analyzeTypeKind t) } }

/-! ### Directives -/

/-- analysis.go:1578-1587. -/
def cutNulls (val : Bytes) : R (Bytes × Option Nulls) :=
  match firstSplit ':' val with
  | none => .ok (val, none)
  | some (v, n) =>
    if n = b!"nullsfirst" then .ok (v, some .first)
    else if n = b!"nullslast" then .ok (v, some .last)
    else .err .badNullsOrderTagValue

/-- analysis.go:1573-1594, on a trimmed non-empty value. -/
def orderItem (rs : RelSpace) (val : Bytes) : R OrderItem :=
  let desc := val.head? = some '-'
  (cutNulls (if desc then val.drop 1 else val)).bind fun p =>
  (parseColIdent rs p.1).map fun cid => { colIdent := cid, desc := desc, nulls := p.2 }

/-- The loop of analysis.go:1567-1596. -/
def orderItems (rs : RelSpace) : List Bytes → R (List OrderItem)
  | [] => .ok []
  | v :: vs =>
    if (trim v).length = 0 then orderItems rs vs
    else (orderItem rs (trim v)).bind fun i => (orderItems rs vs).map (i :: ·)

/-- analysis.go:1556-1602. -/
def analyzeOrderBy (s : St) (h : FieldHdr) : R St :=
  (failIf (!s.q.kind.isSelect) .illegalQueryField).bind fun _ =>
  (failIf ((h.tag.get b!"sql").length = 0) .missingTagColumnList).bind fun _ =>
  (orderItems s.rs (h.tag.get b!"sql")).map fun l => { s with q := { s.q with orderBy := some l } }

/-- analysis.go:1605-1624. -/
def analyzeOverride (s : St) (h : FieldHdr) : R St :=
  (failIf (s.q.kind ≠ .insert) .illegalQueryField).bind fun _ =>
    if tolower (h.tag.first b!"sql") = b!"system" then
      .ok { s with q := { s.q with override := some .system } }
    else if tolower (h.tag.first b!"sql") = b!"user" then
      .ok { s with q := { s.q with override := some .user } }
    else .err .badOverrideTagValue

/-- analysis.go:1644-1648, 1703-1708, 1728-1732: every listed column has a field. -/
def checkColumns (rt : RelType) (l : ColIdentList) : R Unit :=
  failIf (!l.items.all fun c => rt.hasFieldWithColumn c.name) .columnFieldUnknown

/-- analysis.go:1626-1654. -/
def analyzeReturn (s : St) (h : FieldHdr) : R St :=
  (failIf (s.q.rel.type.fields.length = 0) .missingRelField).bind fun _ =>
  (resultChecks s.q).bind fun _ =>
  (parseColIdentList s.rs (h.tag.get b!"sql")).bind fun l =>
  (checkColumns s.q.rel.type l).map fun _ => { s with q := { s.q with ret := some l } }

/-- analysis.go:1672-1687. -/
def analyzeDefault (s : St) (h : FieldHdr) : R St :=
  (failIf (!(s.q.kind = .insert || s.q.kind = .update)) .illegalQueryField).bind fun _ =>
  (parseColIdentList s.rs (h.tag.get b!"sql")).map fun l => { s with q := { s.q with default := some l } }

/-- analysis.go:1689-1714. -/
def analyzeForce (s : St) (h : FieldHdr) : R St :=
  (failIf (!(s.q.kind = .insert || s.q.kind = .update)) .illegalQueryField).bind fun _ =>
  (parseColIdentList s.rs (h.tag.get b!"sql")).bind fun l =>
  (checkColumns s.q.rel.type l).map fun _ => { s with q := { s.q with force := some l } }

/-- analysis.go:1716-1738. -/
def analyzeOptional (s : St) (h : FieldHdr) : R St :=
  (failIf (!s.q.kind.isSelect) .illegalQueryField).bind fun _ =>
  (parseColIdentList s.rs (h.tag.get b!"sql")).bind fun l =>
  (checkColumns s.q.rel.type l).map fun _ => { s with q := { s.q with optional := some l } }

/-! ### Dispatch -/

/-- The keys of the map of analysis.go:362-372. -/
inductive Dir where
  | all | default | force | optional | ret | limit | offset | orderBy | override
deriving Repr, DecidableEq

def dirTable : List (Bytes × Dir) :=
  [(b!"all", .all), (b!"default", .default), (b!"force", .force), (b!"optional", .optional),
   (b!"return", .ret), (b!"limit", .limit), (b!"offset", .offset), (b!"orderby", .orderBy),
   (b!"override", .override)]

/-- analysis.go:361-379. -/
def analyzeDirective (s : St) (h : FieldHdr) (t : Ty) (dirname : Bytes) : R St :=
  match List.lookup (lower dirname) dirTable with
  | some .all => analyzeAll s
  | some .default => analyzeDefault s h
  | some .force => analyzeForce s h
  | some .optional => analyzeOptional s h
  | some .ret => analyzeReturn s h
  | some .limit => analyzeLimit s h t
  | some .offset => analyzeOffset s h t
  | some .orderBy => analyzeOrderBy s h
  | some .override => analyzeOverride s h
  | none => .err .illegalQueryField

/-- The keys of the map of analysis.go:383-393. -/
inductive Fld where
  | wher | join | onConflict | result | limit | offset | rowsAffected
deriving Repr, DecidableEq

def fldTable : List (Bytes × Fld) :=
  [(b!"where", .wher), (b!"join", .join), (b!"from", .join), (b!"using", .join),
   (b!"onconflict", .onConflict), (b!"result", .result), (b!"limit", .limit),
   (b!"offset", .offset), (b!"rowsaffected", .rowsAffected)]

/-- The target type: analysis.go:98-101. -/
def target (env : Env) (typeName : Bytes) : NamedInfo :=
  { name := typeName, pkg := some { path := env.pkgPath, name := [] } }

/-- analysis.go:399-418: fields known by their type. -/
def analyzeTypedField (env : Env) (s : St) (h : FieldHdr) (t : Ty) : R St :=
  (isAccessible env.pkgPath h.name h.exported (some (target env s.q.typeName))).bind fun acc =>
    if acc then
      (isFilterType t).bind fun isF =>
        if isF then analyzeFilterField s h
        else if isErrorHandler t then analyzeErrorHandler s h false
        else if isErrorInfoHandler t then analyzeErrorHandler s h true
        else if isContext t then analyzeContext s h
        else .ok s
    else .ok s

/-- analysis.go:382-420. -/
def analyzeField (env : Env) (s : St) (h : FieldHdr) (t : Ty) : R St :=
  match List.lookup (tolower h.name) fldTable with
  | some .wher => analyzeWhere env s h t
  | some .join => analyzeJoin s h t
  | some .onConflict => analyzeOnConflict s h t
  | some .result => analyzeResult env s h t
  | some .limit => analyzeLimit s h t
  | some .offset => analyzeOffset s h t
  | some .rowsAffected => analyzeRowsAffected s h t
  | none => analyzeTypedField env s h t

/-- One iteration of analysis.go:267-287. -/
def queryStep (env : Env) (s : St) (f : FieldHdr × Ty) : R St :=
  if f.1.tag.has b!"rel" then .ok s
  else
    (getDirectiveName f.2).bind fun d =>
      if f.1.name = b!"_" ∧ d.length > 0 then analyzeDirective s f.1 f.2 d
      else analyzeField env s f.1 f.2

/-- The loop of analysis.go:267-287. -/
def queryFields (env : Env) (s : St) : List (FieldHdr × Ty) → R St
  | [] => .ok s
  | f :: fs => (queryStep env s f).bind fun s => queryFields env s fs

/-- The state of the first pass. -/
structure St1 where
  kind : QKind
  rel : Option RelField := none
  rs : RelSpace := []
  cache : Cache := []
deriving Repr, DecidableEq

/-- A kind that only a select may turn into. -/
def toKind (s : St1) (k : QKind) (r : RelField) (rs : RelSpace) : R St1 :=
  (failIf (s.kind ≠ .select) .illegalQueryField).map fun _ =>
    { s with kind := k, rel := some r, rs := rs }

/-- analysis.go:306-358. -/
def analyzeRelField (env : Env) (s : St1) (h : FieldHdr) (t : Ty) : R St1 :=
  (failIf s.rel.isSome .conflictingRelTag).bind fun _ =>
  (parseRelIdent (h.tag.first b!"rel")).bind fun rid =>
  (addToRelSpace s.rs rid).bind fun rs =>
    let r : RelField := { fieldName := h.name, id := rid }
    if lower h.name = b!"count" ∧ isIntegerType t = true then toKind s .selectCount r rs
    else if lower h.name = b!"exists" ∧ isBoolType t = true then toKind s .selectExists r rs
    else if lower h.name = b!"notexists" ∧ isBoolType t = true then toKind s .selectNotExists r rs
    else
      (if lower h.name = b!"_" then isDirective b!"Relation" t else .ok false).bind fun d =>
        if d then
          (failIf (s.kind ≠ .delete) .illegalQueryField).map fun _ =>
            { s with rel := some { r with isDirective := true }, rs := rs }
        else
          (analyzeRelType env rs s.cache t).bind fun p =>
          (failIf ((s.kind = .insert || s.kind = .update) && p.1.isIter) .illegalQueryField).map fun _ =>
            { s with rel := some { r with type := p.1 }, rs := rs, cache := p.2 }

/-- The loop of analysis.go:251-261. -/
def relFieldsLoop (env : Env) (s : St1) : List (FieldHdr × Ty) → R St1
  | [] => .ok s
  | f :: fs =>
    if f.1.tag.has b!"rel" then
      (analyzeRelField env s f.1 f.2).bind fun s => relFieldsLoop env s fs
    else relFieldsLoop env s fs

/-- analysis.go:233-248. -/
def queryKind (typeName : Bytes) : R QKind :=
  let key := (tolower typeName).take 6
  if key = b!"insert" then .ok .insert
  else if key = b!"update" then .ok .update
  else if key = b!"select" then .ok .select
  else if key = b!"delete" then .ok .delete
  else .panic

/-- analysis.go:229-303: the query, the relations it declares and the cache. -/
def analyzeQuery (env : Env) (cache : Cache) (typeName : Bytes) (fs : List (FieldHdr × Ty)) : R St :=
  (queryKind typeName).bind fun k =>
  (relFieldsLoop env { kind := k, cache := cache } fs).bind fun s =>
    match s.rel with
    | none => .err .missingRelField
    | some r =>
      queryFields env
        { q := { typeName := typeName, kind := s.kind, rel := r }, rs := s.rs, cache := s.cache } fs

/-! ### Filter structs -/

/-- types.go FilterStruct: `constructor` is (name, isV2). -/
structure FilterStruct where
  typeName : Bytes
  rel : RelField
  textSearch : Option ColIdent := none
  constructor : Bytes × Bool
deriving Repr, DecidableEq

structure FSt where
  rel : Option RelField := none
  textSearch : Option ColIdent := none
  constructor : Option (Bytes × Bool) := none
  rs : RelSpace := []
  cache : Cache := []
deriving Repr, DecidableEq

/-- analysis.go:167-195. -/
def filterRel (env : Env) (s : FSt) (h : FieldHdr) (t : Ty) : R FSt :=
  (failIf s.rel.isSome .conflictingRelTag).bind fun _ =>
  (parseRelIdent (h.tag.first b!"rel")).bind fun rid =>
  (addToRelSpace s.rs rid).bind fun rs =>
  (analyzeRelType env rs s.cache t).bind fun p =>
  (failIf p.1.isIter .illegalIteratorField).map fun _ =>
    { s with rel := some { fieldName := h.name, id := rid, type := p.1 }, rs := rs, cache := p.2 }

/-- analysis.go:200-216, 1501-1511, 1742-1755. -/
def filterField (s : FSt) (h : FieldHdr) (t : Ty) : R FSt :=
  (getDirectiveName t).bind fun d =>
    if h.name = b!"_" ∧ d.length > 0 then
      if lower d = b!"textsearch" then
        (parseColIdent s.rs (tolower (h.tag.first b!"sql"))).map fun c =>
          { s with textSearch := some c }
      else .err .illegalQueryField
    else if isFilterConstructor t then
      (failIf s.constructor.isSome .conflictingFilterConstructor).map fun _ =>
        { s with constructor := some (h.name, h.tag.contains b!"filter" b!"v2") }
    else .ok s

/-- The loop of analysis.go:160-217. -/
def filterFields (env : Env) (s : FSt) : List (FieldHdr × Ty) → R FSt
  | [] => .ok s
  | f :: fs =>
    (if f.1.tag.has b!"rel" then filterRel env s f.1 f.2 else filterField s f.1 f.2).bind fun s =>
      filterFields env s fs

/-- analysis.go:156-226. -/
def analyzeFilter (env : Env) (cache : Cache) (typeName : Bytes) (fs : List (FieldHdr × Ty)) :
    R (FilterStruct × Cache) :=
  (filterFields env { cache := cache } fs).bind fun s =>
    match s.rel, s.constructor with
    | none, _ => .err .missingRelField
    | some _, none => .err .missingFilterConstructor
    | some r, some c =>
      .ok ({ typeName := typeName, rel := r, textSearch := s.textSearch, constructor := c }, s.cache)

end Verif.Analysis
