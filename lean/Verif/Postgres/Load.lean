import Verif.Postgres.Check
import Verif.Pgsql.Codecs
import Verif.Pgsql.SpecInt

/-
What is read from the system catalogs of the database: /repo/internal/postgres/postgres.go:1604-1778
(`loadCatalog`), :1806-1985 (`loadRelation`) and :2138-2152 (`int2vec.Scan`).

A `SysTables` holds the rows of pg_type, pg_operator, pg_cast, pg_proc, pg_class, pg_attribute, pg_index and
pg_constraint, with those of their columns that the queries select or filter by and the checker uses.
The answers to the functions `pg_type_is_visible`, `pg_operator_is_visible`, `pg_function_is_visible`,
`pg_get_indexdef` and `pg_get_expr` are fields of the rows, those to `to_regclass` are a list.  The rows of
a table come in the order of the list where the query does not order them.  Errors of the connection are not
modelled.  `LIKE` has no escape character here; the patterns of the program have none.
-/
namespace Verif.Postgres
open Verif.Analysis

/-- A row of pg_type. -/
structure SysType where
  oid : Nat
  nameFmt : Bytes := []
  typ : Char := 'b'
  category : Char
  elem : Nat := 0
  visible : Bool := true
deriving Repr, DecidableEq

/-- A row of pg_operator. -/
structure SysOp where
  name : Bytes
  left : Nat
  right : Nat
  visible : Bool := true
deriving Repr, DecidableEq

/-- A row of pg_proc: `args` is proargtypes, `kind` prokind, `defaults` pronargdefaults. -/
structure SysProc where
  name : Bytes
  args : List Nat
  ret : Nat
  kind : Char := 'f'
  defaults : Nat := 0
  visible : Bool := true
deriving Repr, DecidableEq

/-- A row of pg_attribute; `identity` tells whether attidentity is set. -/
structure SysAttr where
  relid : Nat
  num : Int
  name : Bytes
  typeMod : Int := -1
  notNull : Bool := false
  hasDef : Bool := false
  identity : Bool := false
  dropped : Bool := false
  typid : Nat
deriving Repr, DecidableEq

/-- A row of pg_index with the name of the index. -/
structure SysIndex where
  relid : Nat
  oid : Nat
  name : Bytes
  unique : Bool := false
  primary : Bool := false
  immediate : Bool := true
  key : List Int
  definition : Bytes
  predicate : Bytes := []
deriving Repr, DecidableEq

/-- A row of pg_constraint. -/
structure SysCon where
  relid : Nat
  oid : Nat
  name : Bytes
  typ : Char
deriving Repr, DecidableEq

/-- The database: `names` is what `to_regclass` knows, `kinds` are oid and relkind of pg_class, `literals`
is what `pg_typeof` answers. -/
structure SysTables where
  types : List SysType := []
  ops : List SysOp := []
  casts : List Cast := []
  procs : List SysProc := []
  names : List (Bytes × Nat) := []
  kinds : List (Nat × Char) := []
  attrs : List SysAttr := []
  indexes : List SysIndex := []
  cons : List SysCon := []
  literals : Bytes → Option Nat := fun _ => none

/-! ### The SELECTs -/

/-- Does `f` hold for some end of the text? -/
def someEnd (f : Bytes → Bool) : Bytes → Bool
  | [] => f []
  | c :: cs => f (c :: cs) || someEnd f cs

/-- `text LIKE pattern`. -/
def sqlLike : Bytes → Bytes → Bool
  | [], t => t.length = 0
  | p :: ps, t =>
    if p = '%' then someEnd (sqlLike ps) t
    else
      match t with
      | [] => false
      | c :: cs => (p = '_' || p = c) && sqlLike ps cs

/-- postgres.go:1616-1626 selectTypes, as scanned at :1635-1648. -/
def selectTypes (s : SysTables) : List PgType :=
  (s.types.filter fun t => t.visible && t.category ≠ 'P').map fun t =>
    { oid := t.oid, nameFmt := t.nameFmt, typ := t.typ, category := t.category, elem := t.elem }

/-- postgres.go:1656-1663 selectOperators, as scanned at :1670-1684. -/
def selectOperators (s : SysTables) : List OpKey :=
  s.ops.map fun o => { name := o.name, left := o.left, right := o.right }

/-- postgres.go:1722-1747 selectProcs: the condition. -/
def procSelected (p : SysProc) : Bool :=
  p.args.length = 1 && !sqlLike b!"pg_%" p.name && !sqlLike b!"_pg_%" p.name

/-- postgres.go:1722-1747 selectProcs, as scanned at :1755-1766; `p.proargtypes[0]` is the first of the
types (a vector counts from 0). -/
def selectProcs (s : SysTables) : List Proc :=
  (s.procs.filter procSelected).map fun p =>
    { name := p.name, argType := p.args.headD 0, retType := p.ret }

/-- The rows in ascending order of a key: ORDER BY.  Rows with the same key keep their order. -/
def insertBy {α : Type} (k : α → Int) (x : α) : List α → List α
  | [] => [x]
  | y :: ys => if k x ≤ k y then x :: y :: ys else y :: insertBy k x ys

def orderBy {α : Type} (k : α → Int) : List α → List α
  | [] => []
  | x :: xs => insertBy k x (orderBy k xs)

/-- The primary indexes that the columns of postgres.go:1828-1847 are joined with. -/
def primaryOf (s : SysTables) (a : SysAttr) : List SysIndex :=
  s.indexes.filter fun i => i.primary && i.relid = a.relid && i.key.contains a.num

/-- A row of selectRelationColumns. -/
def colRow (a : SysAttr) (primary : Bool) : RawCol :=
  { num := a.num, name := a.name, typeMod := a.typeMod, hasNotNull := a.notNull
    hasDefault := a.hasDef, isPrimary := primary, typeOid := a.typid }

/-- The rows that LEFT JOIN makes from one row of pg_attribute. -/
def joinRows (s : SysTables) (a : SysAttr) : List RawCol :=
  match primaryOf s a with
  | [] => [colRow a false]
  | is => is.map fun i => colRow a i.primary

/-- postgres.go:1844-1846: the columns that are selected. -/
def liveAttrs (s : SysTables) (relid : Nat) : List SysAttr :=
  s.attrs.filter fun a => a.relid = relid && decide (0 < a.num) && !a.dropped

/-- postgres.go:1828-1847 selectRelationColumns. -/
def selectColumns (s : SysTables) (relid : Nat) : List RawCol :=
  orderBy (·.num) ((liveAttrs s relid).flatMap (joinRows s))

/-- postgres.go:1893-1904 selectRelationConstraints (an index has one row at most, so that the LEFT JOIN
adds no rows). -/
def selectConstraints (s : SysTables) (relid : Nat) : List Constraint :=
  (orderBy (fun c => (c.oid : Int)) (s.cons.filter fun c => c.relid = relid)).map fun c =>
    { name := c.name, typ := c.typ }

/-- The loop of postgres.go:2143-2149. -/
def scanWords : List Bytes → Option (List Int)
  | [] => some []
  | w :: ws =>
    match Pgsql.parseInt 10 16 w with
    | .ok v => (scanWords ws).map (v :: ·)
    | _ => none

/-- postgres.go:2140-2152 int2vec.Scan of a `[]byte` into the nil slice of a new Index. -/
def scanKey (text : Bytes) : Option (List Int) := scanWords (PgServer.splitSpaces text)

/-- postgres.go:1953-1975: one row, in which the key is the text of an int2vector. -/
def readIndex (i : SysIndex) : Option RawIndex :=
  (scanKey (PgServer.vectorOut i.key)).map fun k =>
    { name := i.name, isUnique := i.unique, isPrimary := i.primary, key := k
      definition := i.definition, predicate := i.predicate }

/-- All answers, or none. -/
def allOf {α β : Type} (f : α → Option β) : List α → Option (List β)
  | [] => some []
  | x :: xs =>
    match f x with
    | none => none
    | some y => (allOf f xs).map (y :: ·)

/-- postgres.go:1932-1947 selectRelationIndexes, as scanned at :1953-1975. -/
def selectIndexes (s : SysTables) (relid : Nat) : Option (List RawIndex) :=
  allOf readIndex (orderBy (fun i => (i.oid : Int)) (s.indexes.filter fun i => i.relid = relid))

/-- postgres.go:1814-1980: what is read for one name.  `none`: there is no row at :1814-1822, or (with an
error of its own, which is not told apart here) the key of an index is not read. -/
def askRelation (s : SysTables) (relid : Nat) : Option RawRel :=
  match List.lookup relid s.kinds with
  | none => none
  | some k =>
    match selectIndexes s relid with
    | none => none
    | some is =>
      some { relKind := k, columns := selectColumns s relid, constraints := selectConstraints s relid
             indexes := is }

/-- The names that the database knows, each with what is read for it. -/
def askNames (s : SysTables) : List (Bytes × Nat) → List (Bytes × RawRel)
  | [] => []
  | (n, o) :: r =>
    match askRelation s o with
    | none => askNames s r
    | some x => (n, x) :: askNames s r

/-- postgres.go:1604-1778: the catalog.  A later row replaces an earlier one with the same key in a Go map,
so that it is the last one that is found. -/
def catalogOf (s : SysTables) : Catalog where
  types := (selectTypes s).reverse
  ops := selectOperators s
  casts := s.casts.reverse
  procs := selectProcs s
  rels := askNames s s.names
  litOid := s.literals

/-! ### The cache of relations -/

/-- postgres.go:1807-1811 and 1983: the answer and the new cache. -/
def loadCached (cat : Catalog) (cache : List (RelIdent × Relation)) (rid : RelIdent) :
    P Relation × List (RelIdent × Relation) :=
  match List.lookup rid cache with
  | some rel => (.ok rel, cache)
  | none =>
    match loadRelation cat rid with
    | .ok rel => (.ok rel, (rid, rel) :: cache)
    | r => (r, cache)

/-- The answers to a sequence of requests. -/
def loadMany (cat : Catalog) : List (RelIdent × Relation) → List RelIdent → List (P Relation)
  | _, [] => []
  | cache, rid :: r =>
    (loadCached cat cache rid).1 :: loadMany cat (loadCached cat cache rid).2 r

end Verif.Postgres
