import Verif.Analysis.Rx
import Verif.Filter.Model

/-
Identifiers of relations and columns: /repo/internal/analysis/analysis.go:21-46 (regular
expressions), :1757-1774 (addToRelSpace), :1913-1987 (parseRelIdent, parseColIdent,
parseColIdents, parseColIdentList), :2194-2203 (isColIdent, tolower), :2110-2122 (Contains).

`strings.TrimSpace` is the one of Verif/Filter/Model.lean.  `strings.ToLower` is modelled on
ASCII letters only.
-/
namespace Verif.Analysis

/-- /repo/internal/analysis/error.go:199-241. -/
inductive ECode where
  | badFieldTypeInt | badFieldTypeStruct | badIterTypeInterface | badIterTypeFunc | badRelType
  | illegalQueryField | illegalStructDirective | illegalIteratorField
  | conflictingRelTag | conflictingRelName | conflictingRelAlias | conflictingWhere
  | conflictingOnConflictTarget | conflictingOnConflictAction | conflictingResultTarget
  | conflictingRelationDirective | conflictingFieldOrDirective | conflictingFilterConstructor
  | missingRelField | missingTagValue | missingTagColumnList | missingOnConflictTarget
  | missingFilterConstructor
  | badIdentTagValue | badColIdTagValue | badRelIdTagValue | badBoolTagValue
  | badUIntegerTagValue | badNullsOrderTagValue | badOverrideTagValue | badDirectiveBooleanExpr
  | badBetweenPredicate | badJoinConditionLHS
  | illegalSliceUpdateModifier | illegalListPredicate | illegalUnaryPredicate
  | illegalFieldQuantifier | illegalPredicateQuantifier
  | unknownColumnQualifier | columnFieldUnknown
deriving Repr, DecidableEq

abbrev R (α : Type) := Res ECode α

/-! ### Text helpers -/

/-- `strings.TrimSpace`. -/
abbrev trim (s : Bytes) : Bytes := Verif.Filter.trimSpace s

/-- `strings.ToLower` on one ASCII character. -/
def lowerC (c : Char) : Char :=
  if 'A'.toNat ≤ c.toNat ∧ c.toNat ≤ 'Z'.toNat then Char.ofNat (c.toNat + 32) else c

/-- `strings.ToLower`. -/
def lower (s : Bytes) : Bytes := s.map lowerC

/-- analysis.go:2201-2203 `tolower`. -/
def tolower (s : Bytes) : Bytes := lower (trim s)

/-- Split at the first occurrence of `c` (`strings.IndexByte`); `none` if there is none. -/
def firstSplit (c : Char) : Bytes → Option (Bytes × Bytes)
  | [] => none
  | d :: ds =>
    if d = c then some ([], ds)
    else (firstSplit c ds).map fun p => (d :: p.1, p.2)

/-- Split at the last occurrence of `c` (`strings.LastIndexByte`); `none` if there is none. -/
def lastSplit (c : Char) : Bytes → Option (Bytes × Bytes)
  | [] => none
  | d :: ds =>
    match lastSplit c ds with
    | some p => some (d :: p.1, p.2)
    | none => if d = c then some ([], ds) else none

/-! ### Regular expressions -/

/-- analysis.go:26: `^[A-Za-z_]\w*$`. -/
def rxIdent : Rx := .ident
/-- analysis.go:30: `^(?:[A-Za-z_]\w*\.)?[A-Za-z_]\w*(?:\:[A-Za-z_]\w*)?$`. -/
def rxRelIdent : Rx :=
  .seq (.opt (.seq .ident (.chr '.'))) (.seq .ident (.opt (.seq (.chr ':') .ident)))
/-- analysis.go:34: `^(?:[A-Za-z_]\w*\.)?[A-Za-z_]\w*$`. -/
def rxColIdent : Rx := .seq (.opt (.seq .ident (.chr '.'))) .ident

/-- The alternatives of analysis.go:37-41. -/
def reservedWords : List Bytes :=
  [b!"true", b!"false", b!"current_date", b!"current_time", b!"current_timestamp",
   b!"current_role", b!"current_schema", b!"current_user", b!"localtime", b!"localtimestamp",
   b!"session_user"]

/-- analysis.go:37: `^(?i:...)$`.  (Go also folds U+017F to `s`; such a string is no identifier
anyway, and the result is only used on identifiers.) -/
def isReserved (s : Bytes) : Bool := reservedWords.contains (lower s)

/-- analysis.go:2195-2197. -/
def isColIdent (s : Bytes) : Bool := rxColIdent.matches s && !isReserved s

/-! ### Relation and column identifiers -/

/-- /repo/internal/analysis/types.go RelIdent. -/
structure RelIdent where
  name : Bytes := []
  alias : Bytes := []
  qualifier : Bytes := []
deriving Repr, DecidableEq

/-- /repo/internal/analysis/types.go ColIdent. -/
structure ColIdent where
  qualifier : Bytes := []
  name : Bytes := []
deriving Repr, DecidableEq

/-- analysis.go:1920-1923: the qualifier, if any, and the rest. -/
def cutQualifier (val : Bytes) : Bytes × Bytes :=
  match lastSplit '.' val with
  | some (a, b) => (a, b)
  | none => ([], val)

/-- analysis.go:1924-1927: the rest, and the alias, if any. -/
def cutAlias (val : Bytes) : Bytes × Bytes :=
  match lastSplit ':' val with
  | some (a, b) => (a, b)
  | none => (val, [])

/-- analysis.go:1916-1930. -/
def parseRelIdent (val : Bytes) : R RelIdent :=
  if rxRelIdent.matches val then
    .ok { name := (cutAlias (cutQualifier val).2).1,
          alias := (cutAlias (cutQualifier val).2).2,
          qualifier := (cutQualifier val).1 }
  else .err .badRelIdTagValue

/-- `a.info.RelSpace`, a Go map: the most recent entry for a key wins, but `addToRelSpace`
never stores a key twice. -/
abbrev RelSpace := List (Bytes × RelIdent)

def RelSpace.get (rs : RelSpace) (k : Bytes) : Option RelIdent := List.lookup k rs

/-- analysis.go:1757-1774. -/
def addToRelSpace (rs : RelSpace) (id : RelIdent) : R RelSpace :=
  if id.alias.length > 0 then
    match rs.get id.alias with
    | some _ => .err .conflictingRelAlias
    | none => .ok ((id.alias, id) :: rs)
  else
    match rs.get id.name with
    | some _ => .err .conflictingRelName
    | none => .ok ((id.name, id) :: rs)

/-- analysis.go:1935-1948. -/
def parseColIdent (rs : RelSpace) (val : Bytes) : R ColIdent :=
  if isColIdent val then
    match lastSplit '.' val with
    | some (q, n) =>
      match rs.get q with
      | none => .err .unknownColumnQualifier
      | some _ => .ok { qualifier := q, name := n }
    | none => .ok { name := val }
  else .err .badColIdTagValue

/-- The loop of analysis.go:1960-1966. -/
def parseColIdentsLoop (rs : RelSpace) : List Bytes → R (List ColIdent)
  | [] => .ok []
  | v :: vs =>
    (parseColIdent rs v).bind fun id => (parseColIdentsLoop rs vs).map (id :: ·)

/-- analysis.go:1954-1968. -/
def parseColIdents (rs : RelSpace) (tag : List Bytes) : R (List ColIdent) :=
  if tag.length = 0 then .err .missingTagColumnList else parseColIdentsLoop rs tag

/-- /repo/internal/analysis/types.go ColIdentList. -/
structure ColIdentList where
  all : Bool := false
  items : List ColIdent := []
deriving Repr, DecidableEq

/-- analysis.go:1975-1987. -/
def parseColIdentList (rs : RelSpace) (tag : List Bytes) : R ColIdentList :=
  if tag = [b!"*"] then .ok { all := true }
  else (parseColIdents rs tag).map fun items => { items := items }

/-- analysis.go:2111-2122: only the name of the column counts. -/
def ColIdentList.contains (cl : ColIdentList) (cid : ColIdent) : Bool :=
  cl.all || cl.items.any fun c => c.name = cid.name

end Verif.Analysis
