import Verif.Generator.Db
import Verif.Generator.TreeMeaning

/-
What PostgreSQL does to the tables when it is sent a statement: the effect of the tree that it reads (SpecGram.lean),
given the parameters.

This is the specification of C95; none of it is code of /repo. Tables, rows, joins and what is left open are those of
Db.lean. What is no value here counts as NULL, and a condition that is none as not true.
-/
namespace Verif.Generator.Gram
open Verif.Analysis Verif.Postgres Verif.Generator.Lex

/-- A database, as far as it is concerned with tokens and trees. -/
structure TServer (V : Type) where
  /-- the value of a literal -/
  const : Tok → Option V
  /-- a function without arguments -/
  fn : Bytes → Option V
  call : Bytes → Option V → Option V
  /-- a function of two arguments, other than NULLIF and COALESCE -/
  fn2 : Bytes → Option V → Option V → Option V
  cast : List Tok → V → V
  /-- the operator with these tokens -/
  op : List Tok → Option V → Option V → B3
  truth : Option V → B3
  elems : Option V → List (Option V)
  has : Bytes × Bytes → Bytes → Bool
  default : Bytes × Bytes → Bytes → Option V
  le : V → V → Bool
  nat : V → Nat
  ofNat : Nat → V
  ofBool : Bool → V
  clash : Bytes × Bytes → TargetT → Row V → Row V → Bool

/-! ### Names -/

/-- The name that a token is; words are names in lower case (SpecLex.lean). -/
def ident : Tok → Bytes
  | .word w => w
  | .name n => n
  | _ => []

/-- A table: its schema, its name and what it is called in the statement. -/
def nameOf (r : RelT) : RelIdent :=
  match r.path with
  | [n] => { name := ident n, alias := (r.alias.map ident).getD [] }
  | [q, n] => { name := ident n, alias := (r.alias.map ident).getD [], qualifier := ident q }
  | _ => {}

def colNamed : List Tok → ColIdent
  | [n] => { name := ident n }
  | [q, n] => { qualifier := ident q, name := ident n }
  | _ => {}

/-- How a table is joined. -/
def kindOf (w : Bytes) : Option JoinType :=
  if w = b!"cross" then some .cross
  else if w = b!"inner" then some .inner
  else if w = b!"left" then some .left
  else if w = b!"right" then some .right
  else if w = b!"full" then some .full
  else none

section
variable {V : Type} [DecidableEq V] (S : TServer V)

/-- The database of Db.lean, which is asked by texts: it reads them. -/
def TServer.server : Server V where
  lit s :=
    match atomEx (lex s) with
    | .const t => S.const t
    | .call f [] => S.fn f
    | _ => none
  cast t := S.cast (lex t)
  call f := S.call (lower f)
  op t := S.op (lex t)
  truth := S.truth
  elems := S.elems
  has := S.has
  default := S.default
  le := S.le
  nat := S.nat
  ofNat := S.ofNat
  ofBool := S.ofBool
  clash t k := S.clash t (targetTree k)

/-- What expressions talk about. -/
def TServer.row (j : Joined V) : DbRow (Option V) where
  col p := S.server.col j (colNamed p)
  const := S.const
  fn := S.fn
  call := S.call
  fn2 := S.fn2
  op := S.op
  isNull v := v.isNone
  truth := S.truth
  elems := S.elems
  cast t v := v.map (S.cast t)
  same x y := decide (x = y)
  null := none

variable (ps : List (Option V))

def TServer.value (j : Joined V) (x : Ex) : Option V := (treeVal (S.row j) ps x).getD none

/-- The condition is true; no condition is always true. -/
def TServer.holds (w : Option Ex) (j : Joined V) : Bool :=
  match w with
  | none => true
  | some e => decide (treeHolds (S.row j) ps e = some (some true))

def TServer.joinOf (j : JoinT) : JoinOf V where
  type := kindOf j.kind
  rel := nameOf j.rel
  on := S.holds ps j.on

/-- The rows of FROM: those of a table with those joined to it, or those that are listed; without FROM there is one
row without columns. -/
def TServer.others (T : Tables V) : FromT → List (Joined V)
  | .none => [[]]
  | .tables r js => sources T (nameOf r) (js.map (S.joinOf ps))
  | .values rows alias cols => rows.map fun vs =>
    [({ name := ident alias }, fun n =>
      (((cols.map ident).zip vs).find? fun x => decide (x.1 = n)).bind fun x => S.value ps [] x.2)]

/-- The first row does not come after the second. -/
def TServer.notAfter (order : List OrderT) (a b : Joined V) : Bool :=
  match order with
  | [] => true
  | o :: os =>
    S.server.lt o.desc o.nullsFirst (S.value ps a o.by_) (S.value ps b o.by_) ||
      (!S.server.lt o.desc o.nullsFirst (S.value ps b o.by_) (S.value ps a o.by_) && notAfter os a b)

/-- The number of rows that a LIMIT or OFFSET clause says. -/
def TServer.rows (x : Option Ex) : Option Nat := x.bind fun e => (S.value ps [] e).map S.nat

/-- The rows of a select, in no order. -/
def TServer.found (T : Tables V) (s : SelT) : List (Joined V) :=
  (sources T (nameOf s.rel) (s.joins.map (S.joinOf ps))).filter (S.holds ps s.wher)

/-- A value of a VALUES list or of SET: `none` is DEFAULT. -/
def TServer.cell (j : Joined V) (e : Ex) : Option (Option V) :=
  if e = .const (.word b!"default") then none else some (S.value ps j e)

/-- What ON CONFLICT DO UPDATE makes of the row, `new` is the row that was to be inserted. -/
def TServer.onConflict (rel : RelIdent) (k : ConflictT) (new old : Row V) : Row V :=
  S.server.assign (tableOf rel) (k.set.map fun x => ident x.1)
    (k.set.map fun x => S.cell ps [(rel, old), ({ name := b!"excluded" }, new)] x.2) old

/-- The rows after one is inserted, and the row to be returned, if any. -/
def TServer.insertOne (rel : RelIdent) (conflict : Option ConflictT) (new : Row V) (rows : List (Row V)) :
    List (Row V) × Option (Row V) :=
  match conflict with
  | none => (rows ++ [new], some new)
  | some k =>
    match rows.find? (S.clash (tableOf rel) k.target new) with
    | none => (rows ++ [new], some new)
    | some old =>
      if k.set.length = 0 then (rows, none)
      else
        (rows.map fun r => if S.clash (tableOf rel) k.target new r then S.onConflict ps rel k new r else r,
          some (S.onConflict ps rel k new old))

/-- The same for several rows, one after the other. -/
def TServer.insertAll (rel : RelIdent) (conflict : Option ConflictT) :
    List (Row V) → List (Row V) → List (Row V) × List (Row V)
  | [], rows => (rows, [])
  | new :: more, rows =>
    let a := S.insertOne ps rel conflict new rows
    let b := insertAll rel conflict more a.1
    (b.1, a.2.toList ++ b.2)

/-- A row returned. -/
def TServer.output (j : Joined V) (cols : List Ex) : List (Option V) := cols.map (S.value ps j)

/-- The statement leads from the tables `T` to the tables `T'` and returns the rows `out`. -/
def TServer.Does (T T' : Tables V) (out : List (List (Option V))) : StT → Prop
  | .select s =>
    T' = T ∧
      if s.cols = [.call b!"count" [.star]] then
        -- ORDER BY a column is an error, as the rows are not grouped by it
        s.order = [] ∧
          out = window (S.rows ps s.limit) (S.rows ps s.offset) [[some (S.ofNat (S.found ps T s).length)]]
      else
        ∃ l, l.Perm (S.found ps T s) ∧ l.Pairwise (fun a b => S.notAfter ps s.order a b = true) ∧
          out = (window (S.rows ps s.limit) (S.rows ps s.offset) l).map fun j => S.output ps j s.cols
  | .exists_ not s =>
    T' = T ∧
      let found := window (S.rows ps s.limit) (S.rows ps s.offset) (S.found ps T s)
      out = [[some (S.ofBool (if not then found.isEmpty else !found.isEmpty))]]
  | .insert rel cols _ rows conflict returning =>
    let r := S.insertAll ps (nameOf rel) conflict
      (rows.map fun vs => S.server.newRow (tableOf (nameOf rel)) (cols.map ident) (vs.map (S.cell ps [])))
      (T (tableOf (nameOf rel)))
    T' = setTable T (tableOf (nameOf rel)) r.1 ∧ out = r.2.map fun x => S.output ps [(nameOf rel, x)] returning
  | .update rel cols vals from_ wher returning =>
    ∃ ch : List (Row V × Option (Joined V)),
      ch.map (·.1) = T (tableOf (nameOf rel)) ∧
      (∀ x ∈ ch, Chosen (S.others ps T from_) (S.holds ps wher) (nameOf rel, x.1) x.2) ∧
      let change := fun (old : Row V) (o : Joined V) =>
        S.server.assign (tableOf (nameOf rel)) (cols.map ident) (vals.map (S.cell ps ((nameOf rel, old) :: o))) old
      T' = setTable T (tableOf (nameOf rel)) (ch.map fun x => x.2.elim x.1 (change x.1)) ∧
      out = ch.filterMap fun x => x.2.map fun o => S.output ps ((nameOf rel, change x.1 o) :: o) returning
  | .delete rel using_ wher returning =>
    ∃ ch : List (Row V × Option (Joined V)),
      ch.map (·.1) = T (tableOf (nameOf rel)) ∧
      (∀ x ∈ ch, Chosen (S.others ps T using_) (S.holds ps wher) (nameOf rel, x.1) x.2) ∧
      T' = setTable T (tableOf (nameOf rel)) ((ch.filter fun x => x.2.isNone).map (·.1)) ∧
      out = ch.filterMap fun x => x.2.map fun o => S.output ps ((nameOf rel, x.1) :: o) returning

end

end Verif.Generator.Gram
